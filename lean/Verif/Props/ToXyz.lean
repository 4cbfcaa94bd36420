import Verif.Lemmas.ToXyz

/-!
# Spectrum to XYZ (C54, C55, C60, C69)
-/

namespace CS

/-- The illuminant and the three colour-matching functions can be aligned to 360..780 nm at 1 nm:
each covers that range, or else starts or ends on a whole nanometre inside it (and is then continued
with its end value). -/
structure Tables (il : VSPD ℝ) (cmf : CMF ℝ) : Prop where
  il : Spans il 360 780 1
  x : Spans cmf.xBar 360 780 1
  y : Spans cmf.yBar 360 780 1
  z : Spans cmf.zBar 360 780 1

theorem floor_420 : ⌊((780:ℝ) - 360) / 1⌋₊ + 1 = 421 := by norm_num

theorem floor_84 : ⌊((780:ℝ) - 360) / 5⌋₊ + 1 = 85 := by norm_num

theorem e308_eq : (SpdShape.astmE308 : SpdShape ℝ) = SpdShape.new 360 780 1 := by
  unfold SpdShape.astmE308 SpdShape.new; norm_num

/-- an aligned table -/
noncomputable abbrev table (s : VSPD ℝ) : VSPD ℝ := onGrid 360 780 1 421 (resampled s)

/-- the aligned colour-matching functions -/
noncomputable abbrev ctable (cmf : CMF ℝ) : CMF ℝ := ⟨table cmf.xBar, table cmf.yBar, table cmf.zBar⟩

theorem table_resampled (s : VSPD ℝ) (k : ℕ) (hk : k < 421) (x : ℝ) (hx : x = 360 + k) :
    resampled (table s) x = resampled s x :=
  resampled_onGrid 360 780 1 421 _ one_pos (by norm_num) (by norm_num) k hk x (by rw [hx]; ring)

/-- aligning an aligned table again -/
theorem table_align (s : VSPD ℝ) (lo hi i : ℝ) (n : ℕ) (hpos : 0 < i) (hlo : 360 ≤ lo) (hhi : hi ≤ 780)
    (hle : lo ≤ hi) (hn : ⌊(hi - lo) / i⌋₊ + 1 = n) (hfit : (hi - lo) / i < 2 ^ 64)
    (hg : ∀ k : ℕ, k < n → ∃ j : ℕ, j < 421 ∧ lo + k * i = 360 + j) :
    ∃ N, ∀ fuel, N ≤ fuel → (table s).align fuel (SpdShape.new lo hi i) =
      .ok (onGrid lo hi i n (resampled s)) := by
  obtain ⟨N, h⟩ := onGrid_align 360 780 1 421 (resampled s) one_pos (by norm_num) (by norm_num)
    lo hi i n hpos hlo hhi hle hn hfit
  refine ⟨N, fun fuel hf => ?_⟩
  rw [h fuel hf]
  congr 1
  refine onGrid_congr _ _ _ _ _ _ fun k hk => ?_
  obtain ⟨j, hj, he⟩ := hg k hk
  exact table_resampled s j hj _ he

/-- what is left of `to_xyz` once the tables are aligned -/
noncomputable def toXyzTail (fuel : ℕ) (self il : VSPD ℝ) (cmf : CMF ℝ) : Res (XYZ ℝ) :=
  match self.shape.interval with
  | .varying => do
    let spd ← self.align fuel (SpdShape.new self.shape.start self.shape.end 1)
    spdToXyzIntegration fuel spd (table il) (ctable cmf) spd.shape
  | .uniform interval => do
    let n ← unwrap (Flt.toUsize interval)
    match n with
    | 1 => spdToXyzIntegration fuel self (table il) (ctable cmf) (SpdShape.new 360 780 1)
    | 5 => spdToXyzIntegration fuel self (table il) (ctable cmf) (SpdShape.new 360 780 5)
    | 10 => spdToXyzWeights fuel self (table il) (ctable cmf)
    | _ => spdToXyzIntegration fuel self (table il) (ctable cmf) (SpdShape.new 360 780 1)

/-- the part common to all paths -/
theorem toXyz_prefix (il : VSPD ℝ) (cmf : CMF ℝ) (ht : Tables il cmf) :
    ∃ N, ∀ fuel, N ≤ fuel → ∀ self : VSPD ℝ, self.toXyz fuel il cmf = toXyzTail fuel self il cmf := by
  obtain ⟨N1, h1⟩ := ht.il.align one_pos 421 floor_420 (by norm_num)
  obtain ⟨N2, h2⟩ := ht.x.align one_pos 421 floor_420 (by norm_num)
  obtain ⟨N3, h3⟩ := ht.y.align one_pos 421 floor_420 (by norm_num)
  obtain ⟨N4, h4⟩ := ht.z.align one_pos 421 floor_420 (by norm_num)
  refine ⟨max (max N1 N2) (max N3 N4), fun fuel hf self => ?_⟩
  have e1 : (Flt.lit 1.0 : ℝ) = 1 := by norm_num
  have e5 : (Flt.lit 5.0 : ℝ) = 5 := by norm_num
  have e3 : (Flt.lit 360.0 : ℝ) = 360 := by norm_num
  have e7 : (Flt.lit 780.0 : ℝ) = 780 := by norm_num
  have hsh5 : ({ (SpdShape.new 360 780 1 : SpdShape ℝ) with interval := .uniform 5 } : SpdShape ℝ) =
    SpdShape.new 360 780 5 := rfl
  unfold VSPD.toXyz CMF.align VSPD.interval toXyzTail
  simp only [e1, e3, e5, e7, e308_eq, bind, Except.bind]
  rw [h1 fuel (by omega)]
  dsimp only
  rw [h2 fuel (by omega), h3 fuel (by omega), h4 fuel (by omega)]
  dsimp only
  cases self.shape.interval with
  | varying => rfl
  | uniform v =>
    cases unwrap (Flt.toUsize v) with
    | error e => rfl
    | ok n => rfl

/-- C69 [R]: `to_xyz` for a spectrum with a uniform interval whose integer part is not 5 or 10:
100 * sum over 360, 361, ..., 780 nm of reflectance * illuminant * colour-matching function, divided by
the sum of illuminant * y-bar, each spectrum resampled to the whole nanometre. -/
theorem C69_one_nm (s il : VSPD ℝ) (cmf : CMF ℝ) (ht : Tables il cmf) (hs : Spans s 360 780 1) (i : ℝ)
    (hi : s.shape.interval = .uniform i) (hi1 : -1 < i) (hi2 : i < 2 ^ 64) (h5 : ⌊i⌋₊ ≠ 5)
    (h10 : ⌊i⌋₊ ≠ 10) :
    ∃ N, ∀ fuel, N ≤ fuel → s.toXyz fuel il cmf =
      let g (t : VSPD ℝ) (k : ℕ) : ℝ := resampled t (360 + k)
      .ok (Spec.xyz 421 (g s) (g il) (g cmf.xBar) (g cmf.yBar) (g cmf.zBar)) := by
  obtain ⟨N0, h0⟩ := toXyz_prefix il cmf ht
  have hg : ∀ k : ℕ, k < 421 → ∃ j : ℕ, j < 421 ∧ (360:ℝ) + k * 1 = 360 + j :=
    fun k hk => ⟨k, hk, by ring⟩
  obtain ⟨N1, h1⟩ := hs.align one_pos 421 floor_420 (by norm_num)
  obtain ⟨N2, h2⟩ := table_align il 360 780 1 421 one_pos le_rfl le_rfl (by norm_num) floor_420
    (by norm_num) hg
  obtain ⟨N3, h3⟩ := table_align cmf.xBar 360 780 1 421 one_pos le_rfl le_rfl (by norm_num) floor_420
    (by norm_num) hg
  obtain ⟨N4, h4⟩ := table_align cmf.yBar 360 780 1 421 one_pos le_rfl le_rfl (by norm_num) floor_420
    (by norm_num) hg
  obtain ⟨N5, h5'⟩ := table_align cmf.zBar 360 780 1 421 one_pos le_rfl le_rfl (by norm_num) floor_420
    (by norm_num) hg
  refine ⟨max N0 (max (max N1 N2) (max N3 (max N4 N5))), fun fuel hf => ?_⟩
  have hint := integration_eq fuel s (table il) (ctable cmf)
    360 780 1 421 one_ne_zero _ _ _ _ _ (h1 fuel (by omega)) (h2 fuel (by omega))
    (h3 fuel (by omega)) (h4 fuel (by omega)) (h5' fuel (by omega))
  have hu : Flt.toUsize i = some ⌊i⌋₊ := by rw [flt_toUsize, if_pos ⟨hi1, hi2⟩]
  rw [h0 fuel (by omega) s]
  unfold toXyzTail
  rw [hi]
  dsimp only
  rw [hu]
  simp only [unwrap, bind, Except.bind]
  simp only [mul_one] at hint
  unfold Spec.xyz
  split
  · exact hint
  · rename_i h; exact absurd h h5
  · rename_i h; exact absurd h h10
  · exact hint

/-- C69 [R]: with an interval whose integer part is 5 the sums run over 360, 365, ..., 780 nm. -/
theorem C69_five_nm (s il : VSPD ℝ) (cmf : CMF ℝ) (ht : Tables il cmf) (hs : Spans s 360 780 5) (i : ℝ)
    (hi : s.shape.interval = .uniform i) (h5 : ⌊i⌋₊ = 5) :
    ∃ N, ∀ fuel, N ≤ fuel → s.toXyz fuel il cmf =
      let g (t : VSPD ℝ) (k : ℕ) : ℝ := resampled t (360 + k * 5)
      .ok (Spec.xyz 85 (g s) (g il) (g cmf.xBar) (g cmf.yBar) (g cmf.zBar)) := by
  obtain ⟨N0, h0⟩ := toXyz_prefix il cmf ht
  have hg : ∀ k : ℕ, k < 85 → ∃ j : ℕ, j < 421 ∧ (360:ℝ) + k * 5 = 360 + j :=
    fun k hk => ⟨k * 5, by omega, by push_cast; ring⟩
  have h50 : (0:ℝ) < 5 := by norm_num
  obtain ⟨N1, h1⟩ := hs.align h50 85 floor_84 (by norm_num)
  obtain ⟨N2, h2⟩ := table_align il 360 780 5 85 h50 le_rfl le_rfl (by norm_num) floor_84
    (by norm_num) hg
  obtain ⟨N3, h3⟩ := table_align cmf.xBar 360 780 5 85 h50 le_rfl le_rfl (by norm_num) floor_84
    (by norm_num) hg
  obtain ⟨N4, h4⟩ := table_align cmf.yBar 360 780 5 85 h50 le_rfl le_rfl (by norm_num) floor_84
    (by norm_num) hg
  obtain ⟨N5, h5'⟩ := table_align cmf.zBar 360 780 5 85 h50 le_rfl le_rfl (by norm_num) floor_84
    (by norm_num) hg
  refine ⟨max N0 (max (max N1 N2) (max N3 (max N4 N5))), fun fuel hf => ?_⟩
  have hint := integration_eq fuel s (table il) (ctable cmf)
    360 780 5 85 h50.ne' _ _ _ _ _ (h1 fuel (by omega)) (h2 fuel (by omega))
    (h3 fuel (by omega)) (h4 fuel (by omega)) (h5' fuel (by omega))
  have hf5 := (Nat.floor_eq_iff' (by norm_num)).1 h5
  have ha : -1 < i := by
    have := hf5.1; push_cast at this; linarith
  have hb : i < 2 ^ 64 := lt_of_lt_of_le hf5.2 (by norm_num)
  have hu : Flt.toUsize i = some 5 := by rw [flt_toUsize, if_pos ⟨ha, hb⟩, h5]
  rw [h0 fuel (by omega) s]
  unfold toXyzTail
  rw [hi]
  dsimp only
  rw [hu]
  simp only [unwrap, bind, Except.bind]
  exact hint

/-- C69 [R]: a spectrum with a varying interval from a whole nanometre up: the sums run over the
whole nanometres of the spectrum's own range (not 360..780). -/
theorem C69_varying (s il : VSPD ℝ) (cmf : CMF ℝ) (ht : Tables il cmf) (hi : s.shape.interval = .varying)
    (h2 : 2 ≤ s.samples.length) (hasc : s.wavelengths.Pairwise (· < ·))
    (hst : s.samples.head?.map Sample.nm = some s.shape.start)
    (hen : s.samples.getLast?.map Sample.nm = some s.shape.end) (j : ℕ)
    (hj : s.shape.start = 360 + j) (h780 : s.shape.end ≤ 780) (h1 : s.shape.start + 1 ≤ s.shape.end) :
    ∃ N, ∀ fuel, N ≤ fuel → s.toXyz fuel il cmf =
      let g (t : VSPD ℝ) (k : ℕ) : ℝ := resampled t (s.shape.start + k)
      .ok (Spec.xyz (⌊s.shape.end - s.shape.start⌋₊ + 1) (g s) (g il) (g cmf.xBar) (g cmf.yBar)
        (g cmf.zBar)) := by
  obtain ⟨N0, h0⟩ := toXyz_prefix il cmf ht
  set lo := s.shape.start with hlo
  set hi' := s.shape.end with hhi
  set n := ⌊hi' - lo⌋₊ + 1 with hn
  have hj0 : (0:ℝ) ≤ j := Nat.cast_nonneg j
  have hfl : ((⌊hi' - lo⌋₊ : ℕ) : ℝ) ≤ hi' - lo := Nat.floor_le (by linarith)
  have hfl2 : hi' - lo < (⌊hi' - lo⌋₊ : ℕ) + 1 := Nat.lt_floor_add_one _
  have hn2 : 2 ≤ n := by
    have : 1 ≤ ⌊hi' - lo⌋₊ := Nat.le_floor (by push_cast; linarith)
    omega
  have hn' : ⌊(hi' - lo) / 1⌋₊ + 1 = n := by rw [div_one]
  have hfit : (hi' - lo) / 1 < 2 ^ 64 := by rw [div_one]; norm_num; linarith
  have hcast : ((n : ℕ) : ℝ) = (⌊hi' - lo⌋₊ : ℕ) + 1 := by rw [hn]; push_cast; ring
  have hg : ∀ k : ℕ, k < n → ∃ j : ℕ, j < 421 ∧ lo + k * 1 = 360 + j := by
    intro k hk
    refine ⟨j + k, ?_, by rw [hj]; push_cast; ring⟩
    have hk1 : (k:ℝ) ≤ (⌊hi' - lo⌋₊ : ℕ) := by exact_mod_cast (by omega : k ≤ ⌊hi' - lo⌋₊)
    have : ((j + k : ℕ) : ℝ) < 421 := by push_cast; linarith
    exact_mod_cast this
  have hspan : Spans s lo hi' 1 := ⟨h2, hasc, hst, hen, by
    rw [max_self, min_self]; linarith, Or.inl le_rfl, Or.inl le_rfl⟩
  obtain ⟨N1, h1'⟩ := hspan.align one_pos n hn' hfit
  obtain ⟨N6, h6⟩ := onGrid_align lo hi' 1 n (resampled s) one_pos hn2
    (by rw [hcast]; linarith) lo hi' 1 n one_pos le_rfl le_rfl (by linarith) hn' hfit
  obtain ⟨N2, e2⟩ := table_align il lo hi' 1 n one_pos (by linarith) h780 (by linarith) hn' hfit hg
  obtain ⟨N3, e3⟩ := table_align cmf.xBar lo hi' 1 n one_pos (by linarith) h780 (by linarith) hn' hfit hg
  obtain ⟨N4, e4⟩ := table_align cmf.yBar lo hi' 1 n one_pos (by linarith) h780 (by linarith) hn' hfit hg
  obtain ⟨N5, e5⟩ := table_align cmf.zBar lo hi' 1 n one_pos (by linarith) h780 (by linarith) hn' hfit hg
  refine ⟨max N0 (max (max N1 N2) (max N3 (max N4 (max N5 N6)))), fun fuel hf => ?_⟩
  have hre : onGrid lo hi' 1 n (resampled (onGrid lo hi' 1 n (resampled s))) =
      onGrid lo hi' 1 n (resampled s) :=
    onGrid_congr _ _ _ _ _ _ fun k hk => resampled_onGrid lo hi' 1 n _ one_pos hn2
      (by rw [hcast]; linarith) k hk _ rfl
  have h6' := h6 fuel (by omega)
  rw [hre] at h6'
  have hint := integration_eq fuel (onGrid lo hi' 1 n (resampled s)) (table il)
    (ctable cmf)
    lo hi' 1 n one_ne_zero _ _ _ _ _ h6' (e2 fuel (by omega))
    (e3 fuel (by omega)) (e4 fuel (by omega)) (e5 fuel (by omega))
  rw [h0 fuel (by omega) s]
  unfold toXyzTail
  rw [hi]
  dsimp only
  rw [h1' fuel (by omega)]
  simp only [bind, Except.bind]
  simp only [mul_one] at hint
  exact hint

/-- `filter` when exactly the indices `d, ..., d+m-1` satisfy the predicate -/
theorem filter_window {α : Type} (q : α → Bool) (l : List α) (d m : ℕ) (hdm : d + m ≤ l.length)
    (h : ∀ (k : ℕ) (x : α), l[k]? = some x → (q x = true ↔ d ≤ k ∧ k < d + m)) :
    l.filter q = (l.drop d).take m := by
  have hsplit : l = l.take d ++ ((l.drop d).take m ++ l.drop (d + m)) := by
    rw [← List.drop_drop, List.take_append_drop, List.take_append_drop]
  conv_lhs => rw [hsplit]
  have e1 : (l.take d).filter q = [] := by
    rw [List.filter_eq_nil_iff]
    intro x hx
    obtain ⟨k, hk⟩ := List.mem_iff_getElem?.1 hx
    rw [List.getElem?_take] at hk
    split at hk
    · rw [h k x hk]; omega
    · cases hk
  have e2 : ((l.drop d).take m).filter q = (l.drop d).take m := by
    rw [List.filter_eq_self]
    intro x hx
    obtain ⟨k, hk⟩ := List.mem_iff_getElem?.1 hx
    rw [List.getElem?_take] at hk
    split at hk
    · rw [List.getElem?_drop] at hk
      rw [h (d + k) x hk]; omega
    · cases hk
  have e3 : (l.drop (d + m)).filter q = [] := by
    rw [List.filter_eq_nil_iff]
    intro x hx
    obtain ⟨k, hk⟩ := List.mem_iff_getElem?.1 hx
    rw [List.getElem?_drop] at hk
    rw [h _ x hk]; omega
  rw [List.filter_append, List.filter_append, e1, e2, e3]
  simp

theorem dotSum_getD (u v : List ℝ) (m : ℕ) (hu : u.length = m) (hv : v.length = m) :
    dotSum u v = ∑ k ∈ Finset.range m, u.getD k 0 * v.getD k 0 := by
  rw [dotSum_eq, ← list_sum_range]
  congr 1
  apply List.ext_getElem
  · simp [hu, hv]
  · intro k hk hk'
    simp only [List.length_map, List.length_range] at hk'
    rw [List.getElem_zipWith, List.getElem_map, List.getElem_range,
      List.getD_eq_getElem _ _ (by omega), List.getD_eq_getElem _ _ (by omega)]

/-- folded weights against samples: the full weights against the samples held at both ends -/
theorem Folded.dot {a b : ℕ} {w out : List ℝ} (h : Folded a b w out) (hne : 0 < out.length)
    (f : ℕ → ℝ) : ∑ k ∈ Finset.range out.length, out.getD k 0 * f k =
      ∑ j ∈ Finset.range w.length, w.getD j 0 * f (min (j - a) (out.length - 1)) := by
  obtain ⟨hl, hk⟩ := h
  set n := out.length with hn
  rw [← hl, show n + a + b = a + n + b by omega, Finset.sum_range_add, Finset.sum_range_add]
  have s1 : ∑ j ∈ Finset.range a, w.getD j 0 * f (min (j - a) (n - 1)) =
      (∑ j ∈ Finset.range a, w.getD j 0) * f 0 := by
    rw [Finset.sum_mul]
    refine Finset.sum_congr rfl fun j hj => ?_
    have hj := Finset.mem_range.1 hj
    rw [show min (j - a) (n - 1) = 0 by omega]
  have s2 : ∑ k ∈ Finset.range n, w.getD (a + k) 0 * f (min (a + k - a) (n - 1)) =
      ∑ k ∈ Finset.range n, w.getD (a + k) 0 * f k := by
    refine Finset.sum_congr rfl fun k hk => ?_
    have hk := Finset.mem_range.1 hk
    rw [show min (a + k - a) (n - 1) = k by omega]
  have s3 : ∑ j ∈ Finset.range b, w.getD (a + n + j) 0 * f (min (a + n + j - a) (n - 1)) =
      (∑ j ∈ Finset.range b, w.getD (w.length - b + j) 0) * f (n - 1) := by
    rw [Finset.sum_mul]
    refine Finset.sum_congr rfl fun j hj => ?_
    rw [show min (a + n + j - a) (n - 1) = n - 1 by omega, show w.length - b = a + n by omega]
  rw [s1, s2, s3, Finset.sum_congr rfl fun k hk' => by rw [hk k (Finset.mem_range.1 hk')]]
  simp only [add_mul, Finset.sum_add_distrib]
  have t1 : ∑ k ∈ Finset.range n, (if k = 0 then ∑ j ∈ Finset.range a, w.getD j 0 else 0) * f k =
      (∑ j ∈ Finset.range a, w.getD j 0) * f 0 := by
    rw [Finset.sum_eq_single 0]
    · simp
    · intro c _ hc; simp [hc]
    · intro h0; exact absurd (Finset.mem_range.2 hne) h0
  have t2 : ∑ k ∈ Finset.range n, (if k + 1 = n then
      ∑ j ∈ Finset.range b, w.getD (w.length - b + j) 0 else 0) * f k =
      (∑ j ∈ Finset.range b, w.getD (w.length - b + j) 0) * f (n - 1) := by
    rw [Finset.sum_eq_single (n - 1)]
    · rw [if_pos (by omega)]
    · intro c _ hc; rw [if_neg (by omega), zero_mul]
    · intro h0; exact absurd (Finset.mem_range.2 (by omega)) h0
  rw [t1, t2]
  ring

theorem table_e2022 (il : VSPD ℝ) (cmf : CMF ℝ) :
    E2022Input (ctable cmf) (table il) (SpdShape.new 360 780 10) (10 : ℕ) 10 421 := by
  refine ⟨rfl, rfl, ?_, le_rfl, ?_, by norm_num, by norm_num, ?_, ?_, ?_, ?_⟩
  · show Interval.uniform (10:ℝ) = .uniform ((10:ℕ):ℝ)
    norm_num
  · linarith
  all_goals (rw [onGrid_values, List.length_map, List.length_range])

theorem table_values_getD (s : VSPD ℝ) (j : ℕ) (hj : j < 421) :
    (table s).values.getD j 0 = resampled s (360 + j) := by
  rw [onGrid_values, List.getD_eq_getElem _ _ (by simpa using hj)]
  simp

/-- the 10 nm path, up to the summation -/
theorem weights_steps (fuel : ℕ) (s sp il : VSPD ℝ) (cmf : CMF ℝ) (A B : ℕ)
    (hi : s.shape.interval = .uniform 10) (htrim : s.trim (SpdShape.new 360 780 1) = .ok sp)
    (hA : ⌊(sp.shape.start - 360) / 10⌋₊ = A) (hB : ⌊(780 - sp.shape.end) / 10⌋₊ = B)
    (hAB : A + B < 43) :
    ∃ wx wy wz ox oy oz,
      (∀ c w, (c, w) ∈ [((ctable cmf).xBar, wx), ((ctable cmf).yBar, wy), ((ctable cmf).zBar, wz)] →
        w.length = 43 ∧ ∀ R : ℕ → ℝ, ∑ k ∈ Finset.range 43, w.getD k 0 * R k =
          100 * (∑ j ∈ Finset.range 421, (table il).values.getD j 0 * c.values.getD j 0 *
            Spec.e2022 10 421 R j) /
            ∑ j ∈ Finset.range 421, (table il).values.getD j 0 * (ctable cmf).yBar.values.getD j 0) ∧
      Folded A B wx ox ∧ Folded A B wy oy ∧ Folded A B wz oz ∧
      spdToXyzWeights fuel s (table il) (ctable cmf) =
        .ok ⟨dotSum ox sp.values, dotSum oy sp.values, dotSum oz sp.values⟩ := by
  obtain ⟨wx, wy, wz, e, hd⟩ := C52_integrates (ctable cmf) (table il) (SpdShape.new 360 780 10) 10 421
    (table_e2022 il cmf) (by norm_num)
  obtain ⟨wx', wy', wz', e', lx, ly, lz, -⟩ := C51_normalised (ctable cmf) (table il)
    (SpdShape.new 360 780 10) (10 : ℕ) 10 421 (table_e2022 il cmf) (by norm_num)
  rw [e] at e'
  cases e'
  norm_num at lx ly lz
  obtain ⟨ox, oy, oz, ea, f1, f2, f3, -⟩ := C53_conserves wx wy wz (SpdShape.new 360 780 10) sp.shape 10
    A B 43 rfl hA hB lx ly lz hAB (by norm_num)
  refine ⟨wx, wy, wz, ox, oy, oz, ?_, f1, f2, f3, ?_⟩
  · intro c w hcw
    refine ⟨?_, fun R => hd c w hcw R⟩
    simp only [List.mem_cons, Prod.mk.injEq, List.not_mem_nil, or_false] at hcw
    rcases hcw with ⟨-, rfl⟩ | ⟨-, rfl⟩ | ⟨-, rfl⟩ <;> assumption
  have hsh : ((table il).shape.eqb (ctable cmf).shape) = true := by
    show (Flt.eqb (360:ℝ) 360 && Flt.eqb (780:ℝ) 780 && Flt.eqb (1:ℝ) 1) = true
    simp
  unfold spdToXyzWeights
  rw [hi]
  simp only [hsh, Bool.not_true, bind, Except.bind]
  have hcs : (ctable cmf).shape = SpdShape.new 360 780 1 := rfl
  rw [hcs, htrim, if_neg (by simp)]
  dsimp only
  have st : (SpdShape.new (360:ℝ) 780 1).start = 360 := rfl
  have en : (SpdShape.new (360:ℝ) 780 1).end = 780 := rfl
  simp only [st, en, e]
  rw [lx, usub_ok 43 1 (by norm_num)]
  dsimp only
  have hend : (360:ℝ) + 10 * Flt.ofNat (43 - 1) = 780 := by
    show (360:ℝ) + 10 * ((43 - 1 : ℕ) : ℝ) = 780
    norm_num
  simp only [hend, ea]

/-- the 10 nm path, in closed form, for any spectrum whose trimmed samples `sp` lie on the grid -/
theorem weights_eq (fuel : ℕ) (s sp il : VSPD ℝ) (cmf : CMF ℝ) (A m : ℕ)
    (hi : s.shape.interval = .uniform 10)
    (htrim : s.trim (SpdShape.new 360 780 1) = .ok sp) (hm : sp.values.length = m) (hm0 : 0 < m)
    (hAm : A + m ≤ 43) (hst : sp.shape.start = 360 + A * 10)
    (hen : sp.shape.end = 360 + (A + m - 1) * 10) (R : ℕ → ℝ)
    (hR : ∀ j : ℕ, j < 43 → sp.values.getD (min (j - A) (m - 1)) 0 = R j) :
    spdToXyzWeights fuel s (table il) (ctable cmf) =
      let g (t : VSPD ℝ) (k : ℕ) : ℝ := resampled t (360 + k)
      .ok (Spec.xyz 421 (Spec.e2022 10 421 R) (g il) (g cmf.xBar) (g cmf.yBar) (g cmf.zBar)) := by
  set B := 43 - A - m with hB
  have hmr : (m:ℝ) = 43 - A - B := by
    have : ((A + m + B : ℕ) : ℝ) = 43 := by
      have : A + m + B = 43 := by omega
      exact_mod_cast this
    push_cast at this; linarith
  obtain ⟨wx, wy, wz, ox, oy, oz, hd, f1, f2, f3, hout⟩ := weights_steps fuel s sp il cmf A B hi htrim (by
      rw [hst, show ((360:ℝ) + A * 10 - 360) / 10 = A by ring, Nat.floor_natCast]) (by
      rw [hen, hmr, show ((780:ℝ) - (360 + (A + (43 - A - B) - 1) * 10)) / 10 = B by ring,
        Nat.floor_natCast]) (by omega)
  have hcalc : ∀ (c : VSPD ℝ) (w o : List ℝ), (table c, w) ∈ [((ctable cmf).xBar, wx),
      ((ctable cmf).yBar, wy), ((ctable cmf).zBar, wz)] → Folded A B w o →
      dotSum o sp.values = Spec.tristimulus 421 (Spec.e2022 10 421 R)
        (fun k => resampled il (360 + k)) (fun k => resampled c (360 + k))
        (fun k => resampled cmf.yBar (360 + k)) := by
    intro c w o hcw hf
    obtain ⟨hw, h2⟩ := hd _ _ hcw
    have ho : o.length = m := by have := hf.1; omega
    rw [dotSum_getD o sp.values m ho hm]
    have h1 := hf.dot (by omega) (fun k => sp.values.getD k 0)
    rw [ho, hw] at h1
    rw [h1, Finset.sum_congr rfl fun j hj => by rw [hR j (Finset.mem_range.1 hj)], h2 R]
    unfold Spec.tristimulus
    congr 1
    · congr 1
      refine Finset.sum_congr rfl fun j hj => ?_
      have hj := Finset.mem_range.1 hj
      rw [table_values_getD _ j hj, table_values_getD _ j hj]
      ring
    · refine Finset.sum_congr rfl fun j hj => ?_
      have hj := Finset.mem_range.1 hj
      rw [table_values_getD _ j hj, table_values_getD _ j hj]
  rw [hout, hcalc cmf.xBar wx ox (by simp) f1, hcalc cmf.yBar wy oy (by simp) f2,
    hcalc cmf.zBar wz oz (by simp) f3]
  rfl

/-- trimming a spectrum on the 10 nm grid to 360..780 -/
theorem trim_ten (s : VSPD ℝ) (a : ℤ)
    (hu : ∀ (k : ℕ) (p : Sample ℝ), s.samples[k]? = some p → p.nm = 360 + (a + k) * 10)
    (hlo : a ≤ 42) (hhi : 0 < a + s.samples.length) (hne : 0 < s.samples.length) :
    ∃ (sp : VSPD ℝ) (A m : ℕ), 0 < m ∧ A + m ≤ 43 ∧ s.trim (SpdShape.new 360 780 1) = .ok sp ∧
      sp.samples.length = m ∧ sp.shape.start = 360 + A * 10 ∧ sp.shape.end = 360 + (A + m - 1) * 10 ∧
      (∀ p ∈ sp.samples, p ∈ s.samples) ∧
      ∀ j : ℕ, j < 43 → sp.values.getD (min (j - A) (m - 1)) 0 = Spec.endHeld s.values a j := by
  set n := s.samples.length with hn
  set d := (-a).toNat with hd
  set A := a.toNat with hA
  set m := min n (43 - a).toNat - d with hm
  have hm0 : 0 < m := by omega
  have hdm : d + m ≤ n := by omega
  have hAm : A + m ≤ 43 := by omega
  have hAd : (a:ℝ) + d = A := by
    have : a + d = A := by omega
    exact_mod_cast this
  have hasc : s.wavelengths.Pairwise (· ≤ ·) := by
    rw [List.pairwise_iff_getElem]
    intro i j hi hj hij
    simp only [VSPD.wavelengths, List.length_map] at hi hj
    simp only [VSPD.wavelengths, List.getElem_map]
    rw [hu i _ (List.getElem?_eq_getElem hi), hu j _ (List.getElem?_eq_getElem hj)]
    have : (i:ℝ) < j := by exact_mod_cast hij
    linarith
  have hwin : s.samples.filter (fun p => decide ((SpdShape.new (360:ℝ) 780 1).start ≤ p.nm ∧
      p.nm ≤ (SpdShape.new (360:ℝ) 780 1).end)) = (s.samples.drop d).take m := by
    apply filter_window _ _ _ _ hdm
    intro k p hp
    have hk := (List.getElem?_eq_some_iff.1 hp).1
    rw [hu k p hp, decide_eq_true_iff]
    show ((360:ℝ) ≤ 360 + (a + k) * 10 ∧ 360 + ((a:ℝ) + k) * 10 ≤ 780) ↔ _
    have e1 : ((360:ℝ) ≤ 360 + (a + k) * 10) ↔ 0 ≤ a + k := by
      rw [← Int.cast_nonneg_iff (R := ℝ)]
      push_cast
      constructor <;> intro h <;> linarith
    have e2 : (360 + ((a:ℝ) + k) * 10 ≤ 780) ↔ a + k ≤ 42 := by
      rw [← Int.cast_le (R := ℝ)]
      push_cast
      constructor <;> intro h <;> linarith
    rw [e1, e2]
    omega
  obtain ⟨sp, f, l, htrim, hsamp, hfirst, hlast, hst, hen, -⟩ := (C47_trim s (SpdShape.new 360 780 1)
    hasc).2 (by
      have hmem : s.samples[d] ∈ s.samples.filter (fun p =>
          decide ((SpdShape.new (360:ℝ) 780 1).start ≤ p.nm ∧ p.nm ≤ (SpdShape.new (360:ℝ) 780 1).end)) := by
        rw [hwin]
        refine List.mem_iff_getElem?.2 ⟨0, ?_⟩
        rw [List.getElem?_take, if_pos hm0, List.getElem?_drop, List.getElem?_eq_getElem (by omega)]
        rfl
      have := (List.mem_filter.1 hmem)
      exact ⟨_, this.1, of_decide_eq_true this.2⟩)
  rw [hwin] at hsamp
  have hlen : sp.samples.length = m := by rw [hsamp]; simp; omega
  have hget : ∀ k, k < m → sp.samples[k]? = s.samples[d + k]? := by
    intro k hk
    rw [hsamp, List.getElem?_take, if_pos hk, List.getElem?_drop]
  have hgetD : ∀ k, k < m → sp.values.getD k 0 = s.values.getD (d + k) 0 := by
    intro k hk
    simp only [VSPD.values, List.getD_eq_getElem?_getD, List.getElem?_map, hget k hk]
  have hf' : f.nm = 360 + A * 10 := by
    rw [List.head?_eq_getElem?, hget 0 hm0] at hfirst
    rw [hu _ _ hfirst]
    push_cast
    rw [← hAd]; ring
  have hl' : l.nm = 360 + (A + m - 1) * 10 := by
    rw [List.getLast?_eq_getElem?, hlen, hget (m - 1) (by omega)] at hlast
    rw [hu _ _ hlast]
    push_cast [Nat.cast_sub (show 1 ≤ m from hm0)]
    rw [← hAd]; ring
  have hR : ∀ j : ℕ, j < 43 → sp.values.getD (min (j - A) (m - 1)) 0 = Spec.endHeld s.values a j := by
    intro j hj
    rw [hgetD _ (by omega)]
    unfold Spec.endHeld
    congr 1
    have : s.values.length = n := by simp [VSPD.values, hn]
    rw [this]
    omega
  refine ⟨sp, A, m, hm0, hAm, htrim, hlen, by rw [hst, hf'], by rw [hen, hl'], fun p hp => ?_, hR⟩
  rw [hsamp] at hp
  exact List.mem_of_mem_drop (List.mem_of_mem_take hp)

/-- C69 [R]: with an interval of exactly 10 nm and wavelengths on the grid 360 + 10k (`a` may be
negative: samples outside 360..780 are dropped), the sums run over 360, 361, ..., 780 nm, with the
reflectance interpolated to 1 nm as in ASTM E2022 from the measured values, and held at its end values
outside the measured range. -/
theorem C69_ten_nm (s il : VSPD ℝ) (cmf : CMF ℝ) (ht : Tables il cmf)
    (hi : s.shape.interval = .uniform 10) (a : ℤ)
    (hu : ∀ (k : ℕ) (p : Sample ℝ), s.samples[k]? = some p → p.nm = 360 + (a + k) * 10)
    (hlo : a ≤ 42) (hhi : 0 < a + s.samples.length) (hne : 0 < s.samples.length) :
    ∃ N, ∀ fuel, N ≤ fuel → s.toXyz fuel il cmf =
      let g (t : VSPD ℝ) (k : ℕ) : ℝ := resampled t (360 + k)
      .ok (Spec.xyz 421 (Spec.e2022 10 421 (Spec.endHeld s.values a)) (g il) (g cmf.xBar)
        (g cmf.yBar) (g cmf.zBar)) := by
  obtain ⟨N0, h0⟩ := toXyz_prefix il cmf ht
  refine ⟨N0, fun fuel hf => ?_⟩
  obtain ⟨sp, A, m, hm0, hAm, htrim, hlen, hst, hen, -, hR⟩ := trim_ten s a hu hlo hhi hne
  have hw := weights_eq fuel s sp il cmf A m hi htrim (by simpa [VSPD.values] using hlen) hm0 hAm
    hst hen _ hR
  have hu10 : Flt.toUsize (10:ℝ) = some 10 := by
    rw [flt_toUsize, if_pos ⟨by norm_num, by norm_num⟩]; norm_num
  rw [h0 fuel hf s]
  unfold toXyzTail
  rw [hi]
  dsimp only
  rw [hu10]
  simp only [unwrap, bind, Except.bind]
  exact hw

/-! ## C54: the perfect diffuser -/

/-- C54 [R], partial: a spectrum of at least six samples all holding `v`, with a uniform interval whose
integer part is not 5 or 10, has `y = 100 * v`. Missing: a spectrum that starts or ends inside 360..780
off the whole nanometres (see `C54_counterexample` for the 10 nm path). -/
theorem C54_one_nm_partial (s il : VSPD ℝ) (cmf : CMF ℝ) (v : ℝ) (ht : Tables il cmf)
    (hs : Spans s 360 780 1) (i : ℝ) (hi : s.shape.interval = .uniform i) (hi1 : -1 < i)
    (hi2 : i < 2 ^ 64) (h5 : ⌊i⌋₊ ≠ 5) (h10 : ⌊i⌋₊ ≠ 10) (h6 : 6 ≤ s.samples.length)
    (hv : ∀ p ∈ s.samples, p.v = v)
    (hne : ∑ k ∈ Finset.range 421, resampled il (360 + k) * resampled cmf.yBar (360 + k) ≠ 0) :
    ∃ N, ∀ fuel, N ≤ fuel → ∃ r, s.toXyz fuel il cmf = .ok r ∧ r.y = 100 * v := by
  obtain ⟨N, h⟩ := C69_one_nm s il cmf ht hs i hi hi1 hi2 h5 h10
  exact ⟨N, fun fuel hf => ⟨_, h fuel hf, tristimulus_const _ _ _ _ v
    (fun k _ => resampled_const s v h6 hv hs.asc hs.start hs.stop _) hne⟩⟩

/-- C54 [R], partial: the same for an interval whose integer part is 5, the spectrum starting and
ending on multiples of 5 nm or outside 360..780. -/
theorem C54_five_nm_partial (s il : VSPD ℝ) (cmf : CMF ℝ) (v : ℝ) (ht : Tables il cmf)
    (hs : Spans s 360 780 5) (i : ℝ) (hi : s.shape.interval = .uniform i) (h5 : ⌊i⌋₊ = 5)
    (h6 : 6 ≤ s.samples.length) (hv : ∀ p ∈ s.samples, p.v = v)
    (hne : ∑ k ∈ Finset.range 85, resampled il (360 + k * 5) * resampled cmf.yBar (360 + k * 5) ≠ 0) :
    ∃ N, ∀ fuel, N ≤ fuel → ∃ r, s.toXyz fuel il cmf = .ok r ∧ r.y = 100 * v := by
  obtain ⟨N, h⟩ := C69_five_nm s il cmf ht hs i hi h5
  exact ⟨N, fun fuel hf => ⟨_, h fuel hf, tristimulus_const _ _ _ _ v
    (fun k _ => resampled_const s v h6 hv hs.asc hs.start hs.stop _) hne⟩⟩

/-- C54 [R], partial: the same for 10 nm, on the grid 360 + 10k. No minimum number of samples. -/
theorem C54_ten_nm_partial (s il : VSPD ℝ) (cmf : CMF ℝ) (v : ℝ) (ht : Tables il cmf)
    (hi : s.shape.interval = .uniform 10) (a : ℤ)
    (hu : ∀ (k : ℕ) (p : Sample ℝ), s.samples[k]? = some p → p.nm = 360 + (a + k) * 10)
    (hlo : a ≤ 42) (hhi : 0 < a + s.samples.length) (hlen : 0 < s.samples.length)
    (hv : ∀ p ∈ s.samples, p.v = v)
    (hne : ∑ k ∈ Finset.range 421, resampled il (360 + k) * resampled cmf.yBar (360 + k) ≠ 0) :
    ∃ N, ∀ fuel, N ≤ fuel → ∃ r, s.toXyz fuel il cmf = .ok r ∧ r.y = 100 * v := by
  obtain ⟨N, h⟩ := C69_ten_nm s il cmf ht hi a hu hlo hhi hlen
  have hh : Spec.endHeld s.values a = fun _ => v := by
    funext j
    unfold Spec.endHeld
    have hl : s.values.length = s.samples.length := by simp [VSPD.values]
    rw [List.getD_eq_getElem _ _ (by omega)]
    simp only [VSPD.values, List.getElem_map]
    exact hv _ (List.getElem_mem _)
  refine ⟨N, fun fuel hf => ⟨_, h fuel hf, tristimulus_const _ _ _ _ v (fun k _ => ?_) hne⟩⟩
  rw [hh, e2022_const]

/-- C54 [R], partial: the same for a varying interval, starting on a whole nanometre. -/
theorem C54_varying_partial (s il : VSPD ℝ) (cmf : CMF ℝ) (v : ℝ) (ht : Tables il cmf)
    (hi : s.shape.interval = .varying) (h6 : 6 ≤ s.samples.length)
    (hasc : s.wavelengths.Pairwise (· < ·))
    (hst : s.samples.head?.map Sample.nm = some s.shape.start)
    (hen : s.samples.getLast?.map Sample.nm = some s.shape.end) (j : ℕ)
    (hj : s.shape.start = 360 + j) (h780 : s.shape.end ≤ 780) (h1 : s.shape.start + 1 ≤ s.shape.end)
    (hv : ∀ p ∈ s.samples, p.v = v)
    (hne : ∑ k ∈ Finset.range (⌊s.shape.end - s.shape.start⌋₊ + 1),
      resampled il (s.shape.start + k) * resampled cmf.yBar (s.shape.start + k) ≠ 0) :
    ∃ N, ∀ fuel, N ≤ fuel → ∃ r, s.toXyz fuel il cmf = .ok r ∧ r.y = 100 * v := by
  obtain ⟨N, h⟩ := C69_varying s il cmf ht hi (by omega) hasc hst hen j hj h780 h1
  exact ⟨N, fun fuel hf => ⟨_, h fuel hf, tristimulus_const _ _ _ _ v
    (fun k _ => resampled_const s v h6 hv hasc hst hen _) hne⟩⟩

/-- a flat 1 nm table -/
noncomputable abbrev flatTable (v : ℝ) : VSPD ℝ := onGrid 360 780 1 421 fun _ => v

theorem flatTable_spans (f : ℝ → ℝ) : Spans (onGrid 360 780 1 421 f) 360 780 1 :=
  onGrid_spans _ _ _ _ _ one_pos (by norm_num) (by norm_num) _ _ _ (by norm_num) (Or.inl le_rfl)
    (Or.inl le_rfl)

theorem flat_tables : Tables (flatTable 5) ⟨flatTable 2, flatTable 1, flatTable 3⟩ :=
  ⟨flatTable_spans _, flatTable_spans fun _ => 2, flatTable_spans fun _ => 1,
    flatTable_spans fun _ => 3⟩

theorem flat_sum (m : ℕ) (n : ℕ) (hn : 0 < n) (h : (n - 1) * m < 421) :
    ∑ k ∈ Finset.range n, resampled (flatTable 5) (360 + k * m) * resampled (flatTable 1) (360 + k * m)
      ≠ 0 := by
  have : ∀ k ∈ Finset.range n, resampled (flatTable 5) (360 + k * m) *
      resampled (flatTable 1) (360 + k * m) = 5 := by
    intro k hk
    have hk := Finset.mem_range.1 hk
    have hkm : k * m < 421 := lt_of_le_of_lt (Nat.mul_le_mul_right _ (by omega)) h
    have e1 := onGrid_resampled_table (fun _ => (5:ℝ)) (k * m) hkm
    have e2 := onGrid_resampled_table (fun _ => (1:ℝ)) (k * m) hkm
    push_cast at e1 e2
    rw [e1, e2]; norm_num
  rw [Finset.sum_congr rfl this]
  simp only [Finset.sum_const, Finset.card_range, nsmul_eq_mul]
  have : (0:ℝ) < n := by exact_mod_cast hn
  positivity

/-- Not vacuous: flat tables, reflectances of 0.5 at 400, 410, ..., 700; at 400, 405, ..., 700; at
400, 420, ..., 700 nm. -/
example : (∃ N, ∀ fuel, N ≤ fuel → ∃ r, (onGrid 400 700 10 31 fun _ => 0.5).toXyz fuel (flatTable 5)
      ⟨flatTable 2, flatTable 1, flatTable 3⟩ = .ok r ∧ r.y = 100 * 0.5) ∧
    (∃ N, ∀ fuel, N ≤ fuel → ∃ r, (onGrid 400 700 5 61 fun _ => 0.5).toXyz fuel (flatTable 5)
      ⟨flatTable 2, flatTable 1, flatTable 3⟩ = .ok r ∧ r.y = 100 * 0.5) ∧
    (∃ N, ∀ fuel, N ≤ fuel → ∃ r, (onGrid 400 700 20 16 fun _ => 0.5).toXyz fuel (flatTable 5)
      ⟨flatTable 2, flatTable 1, flatTable 3⟩ = .ok r ∧ r.y = 100 * 0.5) := by
  have hc : ∀ (lo hi i : ℝ) (n : ℕ), ∀ p ∈ (onGrid lo hi i n fun _ => (0.5:ℝ)).samples, p.v = 0.5 := by
    intro lo hi i n p hp
    simp only [onGrid, List.mem_map] at hp
    obtain ⟨k, -, rfl⟩ := hp
    rfl
  refine ⟨?_, ?_, ?_⟩
  · refine C54_ten_nm_partial _ _ _ _ flat_tables rfl 4 (fun k p hp => ?_) (by norm_num)
      (by rw [onGrid_length]; norm_num) (by rw [onGrid_length]; norm_num) (hc _ _ _ _)
      (by simpa using flat_sum 1 421 (by norm_num) (by norm_num))
    simp only [onGrid, List.getElem?_map, Option.map_eq_some_iff] at hp
    obtain ⟨j, hj, rfl⟩ := hp
    have hj' := (List.getElem?_eq_some_iff.1 hj).2
    simp only [List.getElem_range] at hj'
    subst hj'
    push_cast
    ring
  · exact C54_five_nm_partial _ _ _ _ flat_tables (onGrid_spans _ _ _ _ _ (by norm_num) (by norm_num)
      (by norm_num) _ _ _ (by norm_num) (Or.inr ⟨8, by norm_num⟩) (Or.inr ⟨68, by norm_num⟩)) 5 rfl
      (by norm_num) (by rw [onGrid_length]; norm_num) (hc _ _ _ _)
      (by simpa using flat_sum 5 85 (by norm_num) (by norm_num))
  · exact C54_one_nm_partial _ _ _ _ flat_tables (onGrid_spans _ _ _ _ _ (by norm_num) (by norm_num)
      (by norm_num) _ _ _ (by norm_num) (Or.inr ⟨40, by norm_num⟩) (Or.inr ⟨340, by norm_num⟩)) 20 rfl
      (by norm_num) (by norm_num) (by norm_num) (by norm_num) (by rw [onGrid_length]; norm_num)
      (hc _ _ _ _) (by simpa using flat_sum 1 421 (by norm_num) (by norm_num))

/-- C54 [R], counterexample: a reflectance of 1 at 385, 395, ..., 735 nm has `y = 0`, not 100, under an
illuminant that is non-zero at 780 nm only: 37 weights are paired with 36 samples, and the weight of
the long-wave end is lost. -/
theorem C54_counterexample : ∃ N, ∀ fuel, N ≤ fuel → ∃ r,
    (onGrid 385 735 10 36 fun _ => 1).toXyz fuel
      (onGrid 360 780 1 421 fun x => if x = 780 then 1 else 0)
      ⟨flatTable 1, flatTable 1, flatTable 1⟩ = .ok r ∧ r.y = 0 := by
  set s : VSPD ℝ := onGrid 385 735 10 36 fun _ => 1 with hs
  set il : VSPD ℝ := onGrid 360 780 1 421 fun x => if x = 780 then 1 else 0 with hil
  set cmf : CMF ℝ := ⟨flatTable 1, flatTable 1, flatTable 1⟩ with hcmf
  obtain ⟨N0, h0⟩ := toXyz_prefix il cmf
    ⟨flatTable_spans _, flatTable_spans fun _ => 1, flatTable_spans fun _ => 1,
      flatTable_spans fun _ => 1⟩
  refine ⟨N0, fun fuel hf => ?_⟩
  have hin : ∀ p ∈ s.samples, (360:ℝ) ≤ p.nm ∧ p.nm ≤ 780 := by
    intro p hp
    simp only [hs, onGrid, List.mem_map] at hp
    obtain ⟨k, hk, rfl⟩ := hp
    have hk := List.mem_range.1 hk
    have hk' : (k:ℝ) ≤ 35 := by exact_mod_cast (by omega : k ≤ 35)
    have hk0 : (0:ℝ) ≤ k := Nat.cast_nonneg k
    constructor <;> simp only <;> linarith
  obtain ⟨sp, f, l, htrim, hsamp, hfirst, hlast, hst, hen, -⟩ := (C47_trim s (SpdShape.new 360 780 1)
    ((onGrid_asc 385 735 10 36 _ (by norm_num)).imp le_of_lt)).2 (by
      have hm := List.mem_of_getElem? (onGrid_get 385 735 10 36 (fun _ => 1) 0 (by norm_num))
      exact ⟨_, hm, hin _ hm⟩)
  have hself : sp.samples = s.samples := by
    rw [hsamp, List.filter_eq_self]
    intro p hp
    exact decide_eq_true (hin p hp)
  have hf1 : f.nm = 385 := by
    rw [hself, List.head?_eq_getElem?, hs, onGrid_get _ _ _ _ _ _ (by norm_num)] at hfirst
    cases hfirst; norm_num
  have hl1 : l.nm = 735 := by
    rw [hself, List.getLast?_eq_getElem?, hs, onGrid_length, onGrid_get _ _ _ _ _ _ (by norm_num)] at hlast
    cases hlast; norm_num
  obtain ⟨wx, wy, wz, ox, oy, oz, hd, f1, f2, f3, hout⟩ := weights_steps fuel s sp il cmf 2 4 rfl htrim
    (by rw [hst, hf1]; rw [Nat.floor_eq_iff (by norm_num)]; norm_num)
    (by rw [hen, hl1]; rw [Nat.floor_eq_iff (by norm_num)]; norm_num) (by norm_num)
  have hu10 : Flt.toUsize (10:ℝ) = some 10 := by
    rw [flt_toUsize, if_pos ⟨by norm_num, by norm_num⟩]; norm_num
  have htail : toXyzTail fuel s il cmf = spdToXyzWeights fuel s (table il) (ctable cmf) := by
    unfold toXyzTail
    show (do
      let n ← unwrap (Flt.toUsize (10:ℝ))
      _) = _
    rw [hu10]
    rfl
  refine ⟨_, (h0 fuel hf s).trans (htail.trans hout), ?_⟩
  show dotSum oy sp.values = 0
  obtain ⟨lw, hw⟩ := hd (ctable cmf).yBar wy (by simp)
  have lo : oy.length = 37 := by have := f2.1; omega
  -- every weight but the last is zero
  have hzero : ∀ k, k < 42 → wy.getD k 0 = 0 := by
    intro k hk
    have h1 := hw fun j => if j = k then 1 else 0
    have hz : ∀ j ∈ Finset.range 421, (table il).values.getD j 0 * (ctable cmf).yBar.values.getD j 0 *
        Spec.e2022 10 421 (fun j => if j = k then 1 else 0) j = 0 := by
      intro j hj
      have hj := Finset.mem_range.1 hj
      rw [table_values_getD _ j hj, hil, onGrid_resampled_table _ j hj]
      by_cases h420 : j = 420
      · subst h420
        have h42 : Spec.e2022 10 421 (fun j => if j = k then (1:ℝ) else 0) 420 = 0 := by
          unfold Spec.e2022
          norm_num
          omega
        rw [h42, mul_zero]
      · rw [if_neg, zero_mul, zero_mul]
        intro hc
        have : (j:ℝ) = 420 := by linarith
        exact h420 (by exact_mod_cast this)
    rw [Finset.sum_congr rfl hz] at h1
    simpa [Finset.mem_range, show k < 43 by omega] using h1
  have hv : sp.values = (List.range 36).map fun _ => 1 := by
    unfold VSPD.values
    rw [hself]
    exact onGrid_values _ _ _ _ _
  rw [dotSum_eq, hv]
  have : ∀ x ∈ List.zipWith (· * ·) oy ((List.range 36).map fun _ => (1:ℝ)), x = 0 := by
    intro x hx
    obtain ⟨k, hk, rfl⟩ := List.mem_iff_getElem.1 hx
    have hk' : k < 36 := by
      simp only [List.length_zipWith, List.length_map, List.length_range] at hk; omega
    rw [List.getElem_zipWith, List.getElem_map, mul_one, ← List.getD_eq_getElem oy 0 (by omega),
      f2.2 k (by omega), if_neg (show ¬ k + 1 = oy.length by omega), hzero _ (by omega)]
    split
    · rw [Finset.sum_range_succ, Finset.sum_range_one, hzero 0 (by norm_num), hzero 1 (by norm_num)]
      norm_num
    · simp
  exact List.sum_eq_zero this

end CS

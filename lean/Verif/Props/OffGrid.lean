import Verif.Lemmas.AlignExact
import Verif.Props.ToXyz

/-!
# Spectra that start or end between grid points (C46, C54, C69)
-/

namespace CS

/-- A spectrum as the constructor makes it (at least two samples, strictly increasing wavelengths,
shape naming the first and last) whose range meets `lo..hi`. -/
structure Meets (s : VSPD ℝ) (lo hi : ℝ) : Prop where
  two : 2 ≤ s.samples.length
  asc : s.wavelengths.Pairwise (· < ·)
  start : s.samples.head?.map Sample.nm = some s.shape.start
  stop : s.samples.getLast?.map Sample.nm = some s.shape.end
  overlap : max lo s.shape.start ≤ min hi s.shape.end

theorem Spans.meets {s : VSPD ℝ} {lo hi i : ℝ} (h : Spans s lo hi i) : Meets s lo hi :=
  ⟨h.two, h.asc, h.start, h.stop, h.overlap⟩

/-! ## C46: the samples `align` makes -/

/-- C46 [R]: what `align` returns for any spectrum, wherever it starts and ends. With `s0..e0` the
part of the requested range the spectrum covers: first samples at `lo + k*i` for the `k` with
`lo + k*i < s0`; then samples at `s0 + k*i` up to `e0`; then samples at `e0 + (k+1)*i` up to `hi`. The
first and the last group repeat the first and the last value of the middle one. -/
theorem C46_align_exact (s : VSPD ℝ) (lo hi i : ℝ) (h : Meets s lo hi) (hpos : 0 < i) (s0 e0 : ℝ)
    (m : ℕ) (hs0 : s0 = max lo s.shape.start) (he0 : e0 = min hi s.shape.end)
    (hm : m = ⌊(e0 - s0) / i⌋₊) (hfit : (e0 - s0) / i < 2 ^ 64) :
    ∃ N : ℕ, ∀ fuel, N ≤ fuel → s.align fuel (SpdShape.new lo hi i) =
      .ok ⟨((List.range ⌈(s0 - lo) / i⌉₊).map fun k : ℕ => ⟨lo + k * i, resampled s s0⟩) ++
        ((List.range (m + 1)).map fun k : ℕ => ⟨s0 + k * i, resampled s (s0 + k * i)⟩) ++
        ((List.range ⌊(hi - e0) / i⌋₊).map fun k : ℕ =>
          ⟨e0 + (k + 1) * i, resampled s (s0 + m * i)⟩), SpdShape.new lo hi i⟩ :=
  align_exact s lo hi i h.two h.asc h.start h.stop hpos s0 e0 m hs0 he0
    (by rw [hs0, he0]; exact h.overlap) hm hfit

/-- how many samples `align` returns -/
noncomputable def alignedCount (s : VSPD ℝ) (lo hi i : ℝ) : ℕ :=
  ⌈(max lo s.shape.start - lo) / i⌉₊ + (⌊(min hi s.shape.end - max lo s.shape.start) / i⌋₊ + 1) +
    ⌊(hi - min hi s.shape.end) / i⌋₊

/-- the values `align` returns, in order, and 0 past the last -/
noncomputable def alignedAt (s : VSPD ℝ) (lo hi i : ℝ) (k : ℕ) : ℝ :=
  let s0 := max lo s.shape.start
  let e0 := min hi s.shape.end
  let l := ⌈(s0 - lo) / i⌉₊
  let m := ⌊(e0 - s0) / i⌋₊
  if alignedCount s lo hi i ≤ k then 0 else resampled s (s0 + (min (k - l) m : ℕ) * i)

theorem align_values (s : VSPD ℝ) (lo hi i : ℝ) (h : Meets s lo hi) (hpos : 0 < i)
    (hfit : (hi - lo) / i < 2 ^ 64) :
    ∃ (N : ℕ) (r : VSPD ℝ), (∀ fuel, N ≤ fuel → s.align fuel (SpdShape.new lo hi i) = .ok r) ∧
      r.shape = SpdShape.new lo hi i ∧
      r.values = (List.range (alignedCount s lo hi i)).map (alignedAt s lo hi i) := by
  obtain ⟨N, hN⟩ := C46_align_exact s lo hi i h hpos _ _ _ rfl rfl rfl (by
    refine lt_of_le_of_lt ?_ hfit
    rw [div_le_div_iff_of_pos_right hpos]
    linarith [le_max_left lo s.shape.start, min_le_left hi s.shape.end])
  refine ⟨N, _, hN, rfl, ?_⟩
  unfold VSPD.values
  set l := ⌈(max lo s.shape.start - lo) / i⌉₊ with hl
  set m := ⌊(min hi s.shape.end - max lo s.shape.start) / i⌋₊ with hm
  set q := ⌊(hi - min hi s.shape.end) / i⌋₊ with hq
  have hc : alignedCount s lo hi i = l + (m + 1) + q := rfl
  have hat : ∀ k, k < l + (m + 1) + q → alignedAt s lo hi i k =
      resampled s (max lo s.shape.start + (min (k - l) m : ℕ) * i) := by
    intro k hk
    unfold alignedAt
    rw [if_neg (by omega)]
  rw [hc]
  apply List.ext_getElem
  · simp; omega
  · intro k hk hk'
    have hk2 : k < l + (m + 1) + q := by simpa using hk'
    simp only [List.getElem_map, List.getElem_range]
    rw [hat k hk2]
    by_cases h1 : k < l
    · rw [List.getElem_append_left (by simp; omega), List.getElem_append_left (by simp; omega)]
      simp only [List.getElem_map, List.getElem_range]
      rw [show min (k - l) m = 0 by omega]; simp
    · by_cases h2 : k < l + (m + 1)
      · rw [List.getElem_append_left (by simp; omega), List.getElem_append_right (by simp; omega)]
        simp only [List.getElem_map, List.getElem_range, List.length_map, List.length_range]
        rw [show min (k - l) m = k - l by omega]
      · rw [List.getElem_append_right (by simp; omega)]
        simp only [List.getElem_map]
        rw [show min (k - l) m = m by omega]

theorem alignedCount_eq (s : VSPD ℝ) (lo hi i : ℝ) (n : ℕ) (h : Meets s lo hi) (hpos : 0 < i)
    (hn : hi = lo + n * i) : alignedCount s lo hi i =
      if Int.fract (-((min hi s.shape.end - lo) / i)) ≤ Int.fract (-((max lo s.shape.start - lo) / i))
      then n + 1 else n := by
  have hnn : (hi - lo) / i = n := by rw [hn]; field_simp; ring
  unfold alignedCount
  have hov := h.overlap
  set s0 := max lo s.shape.start with hs0
  set e0 := min hi s.shape.end with he0
  have hx0 : 0 ≤ (s0 - lo) / i := div_nonneg (by linarith [le_max_left lo s.shape.start]) hpos.le
  have hy0 : 0 ≤ (e0 - s0) / i := div_nonneg (by linarith) hpos.le
  have hz0 : 0 ≤ (hi - e0) / i := div_nonneg (by linarith [min_le_left hi s.shape.end]) hpos.le
  have hsum : (s0 - lo) / i + (e0 - s0) / i + (hi - e0) / i = n := by
    rw [← hnn]; ring
  have hy : (e0 - lo) / i = (s0 - lo) / i + (e0 - s0) / i := by ring
  rw [hy]
  set x := (s0 - lo) / i
  set y := (e0 - s0) / i
  set z := (hi - e0) / i
  have c1 := Nat.le_ceil x
  have c2 := Nat.ceil_lt_add_one hx0
  have f1 := Nat.floor_le hy0
  have f2 := Nat.lt_floor_add_one y
  have g1 := Nat.floor_le hz0
  have g2 := Nat.lt_floor_add_one z
  have e1 : Int.fract (-(x + y)) = z - ⌊z⌋₊ := by
    have : -(x + y) = z - (n:ℤ) := by push_cast; linarith
    rw [this, Int.fract_sub_intCast, Int.fract, ← natCast_floor_eq_intCast_floor hz0]
  have e2 : Int.fract (-x) = ⌈x⌉₊ - x := by
    rw [Int.fract, Int.floor_neg, Int.cast_neg, ← natCast_ceil_eq_intCast_ceil hx0]
    ring
  rw [e1, e2]
  split
  · rename_i hle
    have hlo : (n:ℝ) < (⌈x⌉₊ + (⌊y⌋₊ + 1) + ⌊z⌋₊ : ℕ) := by push_cast; linarith
    have hhi : ((⌈x⌉₊ + (⌊y⌋₊ + 1) + ⌊z⌋₊ : ℕ) : ℝ) < (n + 2 : ℕ) := by push_cast; linarith
    have hlo := Nat.cast_lt.1 hlo
    have hhi := Nat.cast_lt.1 hhi
    omega
  · rename_i hle
    have hlo : (n:ℝ) < (⌈x⌉₊ + (⌊y⌋₊ + 1) + ⌊z⌋₊ + 1 : ℕ) := by push_cast; linarith
    have hhi : ((⌈x⌉₊ + (⌊y⌋₊ + 1) + ⌊z⌋₊ : ℕ) : ℝ) < (n + 1 : ℕ) := by push_cast; linarith
    have hlo := Nat.cast_lt.1 hlo
    have hhi := Nat.cast_lt.1 hhi
    omega

/-- C46 [R]: the number of samples of an aligned spectrum, for a range of `n` whole steps: the `n + 1`
of the requested shape if the spectrum's end falls short of the next grid point by no more than its
start does, and one fewer otherwise. -/
theorem C46_count (s : VSPD ℝ) (lo hi i : ℝ) (n : ℕ) (h : Meets s lo hi) (hpos : 0 < i)
    (hn : hi = lo + n * i) (hfit : n < 2 ^ 64) :
    ∃ (N : ℕ) (r : VSPD ℝ), (∀ fuel, N ≤ fuel → s.align fuel (SpdShape.new lo hi i) = .ok r) ∧
      r.samples.length =
        if Int.fract (-((min hi s.shape.end - lo) / i)) ≤ Int.fract (-((max lo s.shape.start - lo) / i))
        then n + 1 else n := by
  have hnn : (hi - lo) / i = n := by rw [hn]; field_simp; ring
  obtain ⟨N, r, h1, -, h3⟩ := align_values s lo hi i h hpos (by rw [hnn]; exact_mod_cast hfit)
  refine ⟨N, r, h1, ?_⟩
  have hlen : r.samples.length = alignedCount s lo hi i := by
    have := congrArg List.length h3
    simpa [VSPD.values] using this
  rw [hlen, alignedCount_eq s lo hi i n h hpos hn]

/-- Not vacuous, and both cases occur: samples at 0.5, 1.5, 2.5 aligned to 0, 1, 2, 3 give four
samples, samples at 0.75, 1.25 three. -/
example : (∃ N, ∃ r : VSPD ℝ, (∀ fuel, N ≤ fuel →
      (onGrid 0.5 2.5 1 3 fun _ => 1).align fuel (SpdShape.new 0 3 1) = .ok r) ∧ r.samples.length = 4) ∧
    (∃ N, ∃ r : VSPD ℝ, (∀ fuel, N ≤ fuel →
      (onGrid 0.75 1.25 0.5 2 fun _ => 1).align fuel (SpdShape.new 0 3 1) = .ok r) ∧
      r.samples.length = 3) := by
  have hm : ∀ (lo hi i : ℝ) (n : ℕ), 0 < i → 2 ≤ n → hi = lo + ((n:ℝ) - 1) * i → 0 ≤ lo → hi ≤ 3 →
      lo ≤ hi → Meets (onGrid lo hi i n fun _ => 1) 0 3 := by
    intro lo hi i n hi0 h2 hhi h0 h3 hle
    have := onGrid_spans lo hi i n (fun _ => 1) hi0 h2 hhi lo hi i (by simpa using hle) (Or.inl le_rfl)
      (Or.inl le_rfl)
    refine ⟨this.two, this.asc, this.start, this.stop, ?_⟩
    show max 0 lo ≤ min 3 hi
    rw [max_eq_right h0, min_eq_right h3]; exact hle
  constructor
  · obtain ⟨N, r, h1, h2⟩ := C46_count (onGrid 0.5 2.5 1 3 fun _ => 1) 0 3 1 3
      (hm _ _ _ _ (by norm_num) (by norm_num) (by norm_num) (by norm_num) (by norm_num) (by norm_num))
      one_pos (by norm_num) (by norm_num)
    refine ⟨N, r, h1, h2.trans (if_pos ?_)⟩
    show Int.fract (-((min 3 2.5 - 0) / 1 : ℝ)) ≤ Int.fract (-((max 0 0.5 - 0) / 1 : ℝ))
    have e1 : (-((min 3 2.5 - 0) / 1 : ℝ)) = 0.5 - (3:ℤ) := by norm_num
    have e2 : (-((max 0 0.5 - 0) / 1 : ℝ)) = 0.5 - (1:ℤ) := by norm_num
    rw [e1, e2, Int.fract_sub_intCast, Int.fract_sub_intCast]
  · obtain ⟨N, r, h1, h2⟩ := C46_count (onGrid 0.75 1.25 0.5 2 fun _ => 1) 0 3 1 3
      (hm _ _ _ _ (by norm_num) (by norm_num) (by norm_num) (by norm_num) (by norm_num) (by norm_num))
      one_pos (by norm_num) (by norm_num)
    refine ⟨N, r, h1, h2.trans (if_neg ?_)⟩
    show ¬ Int.fract (-((min 3 1.25 - 0) / 1 : ℝ)) ≤ Int.fract (-((max 0 0.75 - 0) / 1 : ℝ))
    have e1 : (-((min 3 1.25 - 0) / 1 : ℝ)) = 0.75 - (2:ℤ) := by norm_num
    have e2 : (-((max 0 0.75 - 0) / 1 : ℝ)) = 0.25 - (1:ℤ) := by norm_num
    rw [e1, e2, Int.fract_sub_intCast, Int.fract_sub_intCast, Int.fract_eq_self.2 (by norm_num),
      Int.fract_eq_self.2 (by norm_num)]
    norm_num

/-! ## C69: the sums -/

theorem zip3_list_sum (n : ℕ) (V : List ℝ) (S c : ℕ → ℝ) (dw : ℝ) :
    fsum ((V.zip (((List.range n).map S).zip ((List.range n).map c))).map
      fun p => p.1 * p.2.1 * p.2.2 * dw) = (∑ k ∈ Finset.range n, V.getD k 0 * S k * c k) * dw := by
  have e : (V.zip (((List.range n).map S).zip ((List.range n).map c))).map
      (fun p => p.1 * p.2.1 * p.2.2 * dw) =
      (List.range (min V.length n)).map fun k => V.getD k 0 * S k * c k * dw := by
    apply List.ext_getElem
    · simp
    · intro k hk hk'
      have hk2 : k < min V.length n := by simpa using hk'
      simp only [List.getElem_map, List.getElem_zip, List.getElem_range]
      rw [List.getD_eq_getElem _ _ (by omega)]
  rw [fsum_eq, e, list_sum_range, Finset.sum_mul]
  refine Finset.sum_subset (fun k hk => ?_) (fun k hk hk' => ?_)
  · have := Finset.mem_range.1 hk; exact Finset.mem_range.2 (by omega)
  · have h1 := Finset.mem_range.1 hk
    rw [Finset.mem_range, not_lt] at hk'
    rw [List.getD_eq_default _ _ (by omega)]; ring

/-- the integral, whatever the number of samples of the aligned reflectance -/
theorem integration_list (fuel : ℕ) (spd il sp ia xa ya za : VSPD ℝ) (cmf : CMF ℝ) (lo hi i : ℝ)
    (n : ℕ) (hi0 : i ≠ 0) (S x y z : ℕ → ℝ)
    (hs : spd.align fuel (SpdShape.new lo hi i) = .ok sp)
    (hil : il.align fuel (SpdShape.new lo hi i) = .ok ia)
    (hx : cmf.xBar.align fuel (SpdShape.new lo hi i) = .ok xa)
    (hy : cmf.yBar.align fuel (SpdShape.new lo hi i) = .ok ya)
    (hz : cmf.zBar.align fuel (SpdShape.new lo hi i) = .ok za)
    (vi : ia.values = (List.range n).map S) (vx : xa.values = (List.range n).map x)
    (vy : ya.values = (List.range n).map y) (vz : za.values = (List.range n).map z) :
    spdToXyzIntegration fuel spd il cmf (SpdShape.new lo hi i) =
      .ok (Spec.xyz n (fun k => sp.values.getD k 0) S x y z) := by
  unfold spdToXyzIntegration
  rw [hs, hil, hx, hy, hz]
  simp only [bind, Except.bind]
  show Except.ok _ = Except.ok _
  have h100 : (Flt.lit 100.0 : ℝ) = 100 := by norm_num
  have key : ∀ (c : VSPD ℝ) (g : ℕ → ℝ), c.values = (List.range n).map g →
      (Flt.lit 100.0 : ℝ) / fsum ((ia.values.zip ya.values).map fun p => p.1 * p.2 * i) *
      fsum ((sp.values.zip (ia.values.zip c.values)).map fun p => p.1 * p.2.1 * p.2.2 * i) =
      Spec.tristimulus n (fun k => sp.values.getD k 0) S g y := by
    intro c g hc
    rw [vi, vy, hc, zip_range_sum, zip3_list_sum, h100]
    unfold Spec.tristimulus
    have hc : ∀ A D : ℝ, 100 / (D * i) * (A * i) = 100 * A / D := by
      intro A D; field_simp
    exact hc _ _
  unfold Spec.xyz
  rw [key _ _ vx, key _ _ vy, key _ _ vz]

theorem range_map_getD (n : ℕ) (f : ℕ → ℝ) (hf : ∀ k, n ≤ k → f k = 0) :
    (fun k => ((List.range n).map f).getD k 0) = f := by
  funext k
  by_cases h : k < n
  · rw [List.getD_eq_getElem _ _ (by simpa using h)]; simp
  · rw [List.getD_eq_default _ _ (by simpa using h), hf k (by omega)]

theorem alignedAt_past (s : VSPD ℝ) (lo hi i : ℝ) (k : ℕ) (hk : alignedCount s lo hi i ≤ k) :
    alignedAt s lo hi i k = 0 := by
  unfold alignedAt
  rw [if_pos hk]

/-- C69 [R]: the 1 nm path for any spectrum that meets 360..780, on or off the whole nanometres: the
k-th sample of the aligned spectrum (`C46_align_exact`; 0 if there is none) is weighted as the
reflectance at `360 + k` nm. -/
theorem C69_one_nm_off_grid (s il : VSPD ℝ) (cmf : CMF ℝ) (ht : Tables il cmf) (hs : Meets s 360 780)
    (i : ℝ) (hi : s.shape.interval = .uniform i) (hi1 : -1 < i) (hi2 : i < 2 ^ 64) (h5 : ⌊i⌋₊ ≠ 5)
    (h10 : ⌊i⌋₊ ≠ 10) :
    ∃ N, ∀ fuel, N ≤ fuel → s.toXyz fuel il cmf =
      let g (t : VSPD ℝ) (k : ℕ) : ℝ := resampled t (360 + k)
      .ok (Spec.xyz 421 (alignedAt s 360 780 1) (g il) (g cmf.xBar) (g cmf.yBar) (g cmf.zBar)) := by
  obtain ⟨N0, h0⟩ := toXyz_prefix il cmf ht
  have hg : ∀ k : ℕ, k < 421 → ∃ j : ℕ, j < 421 ∧ (360:ℝ) + k * 1 = 360 + j :=
    fun k hk => ⟨k, hk, by ring⟩
  obtain ⟨N1, r, h1, -, hv⟩ := align_values s 360 780 1 hs one_pos (by norm_num)
  obtain ⟨N2, h2⟩ := table_align il 360 780 1 421 one_pos le_rfl le_rfl (by norm_num) floor_420
    (by norm_num) hg
  obtain ⟨N3, h3⟩ := table_align cmf.xBar 360 780 1 421 one_pos le_rfl le_rfl (by norm_num) floor_420
    (by norm_num) hg
  obtain ⟨N4, h4⟩ := table_align cmf.yBar 360 780 1 421 one_pos le_rfl le_rfl (by norm_num) floor_420
    (by norm_num) hg
  obtain ⟨N5, h5'⟩ := table_align cmf.zBar 360 780 1 421 one_pos le_rfl le_rfl (by norm_num) floor_420
    (by norm_num) hg
  refine ⟨max N0 (max (max N1 N2) (max N3 (max N4 N5))), fun fuel hf => ?_⟩
  have hint := integration_list fuel s (table il) _ _ _ _ _ (ctable cmf)
    360 780 1 421 one_ne_zero _ _ _ _ (h1 fuel (by omega)) (h2 fuel (by omega))
    (h3 fuel (by omega)) (h4 fuel (by omega)) (h5' fuel (by omega)) (onGrid_values ..)
    (onGrid_values ..) (onGrid_values ..) (onGrid_values ..)
  have hu : Flt.toUsize i = some ⌊i⌋₊ := by rw [flt_toUsize, if_pos ⟨hi1, hi2⟩]
  rw [hv, range_map_getD _ _ (alignedAt_past s 360 780 1)] at hint
  rw [h0 fuel (by omega) s]
  unfold toXyzTail
  rw [hi]
  dsimp only
  rw [hu]
  simp only [unwrap, bind, Except.bind]
  simp only [mul_one] at hint
  split
  · exact hint
  · rename_i h; exact absurd h h5
  · rename_i h; exact absurd h h10
  · exact hint

/-- C69 [R]: the 5 nm path for any spectrum that meets 360..780. -/
theorem C69_five_nm_off_grid (s il : VSPD ℝ) (cmf : CMF ℝ) (ht : Tables il cmf) (hs : Meets s 360 780)
    (i : ℝ) (hi : s.shape.interval = .uniform i) (h5 : ⌊i⌋₊ = 5) :
    ∃ N, ∀ fuel, N ≤ fuel → s.toXyz fuel il cmf =
      let g (t : VSPD ℝ) (k : ℕ) : ℝ := resampled t (360 + k * 5)
      .ok (Spec.xyz 85 (alignedAt s 360 780 5) (g il) (g cmf.xBar) (g cmf.yBar) (g cmf.zBar)) := by
  obtain ⟨N0, h0⟩ := toXyz_prefix il cmf ht
  have hg : ∀ k : ℕ, k < 85 → ∃ j : ℕ, j < 421 ∧ (360:ℝ) + k * 5 = 360 + j :=
    fun k hk => ⟨k * 5, by omega, by push_cast; ring⟩
  have h50 : (0:ℝ) < 5 := by norm_num
  obtain ⟨N1, r, h1, -, hv⟩ := align_values s 360 780 5 hs h50 (by norm_num)
  obtain ⟨N2, h2⟩ := table_align il 360 780 5 85 h50 le_rfl le_rfl (by norm_num) floor_84
    (by norm_num) hg
  obtain ⟨N3, h3⟩ := table_align cmf.xBar 360 780 5 85 h50 le_rfl le_rfl (by norm_num) floor_84
    (by norm_num) hg
  obtain ⟨N4, h4⟩ := table_align cmf.yBar 360 780 5 85 h50 le_rfl le_rfl (by norm_num) floor_84
    (by norm_num) hg
  obtain ⟨N5, h5'⟩ := table_align cmf.zBar 360 780 5 85 h50 le_rfl le_rfl (by norm_num) floor_84
    (by norm_num) hg
  refine ⟨max N0 (max (max N1 N2) (max N3 (max N4 N5))), fun fuel hf => ?_⟩
  have hint := integration_list fuel s (table il) _ _ _ _ _ (ctable cmf)
    360 780 5 85 h50.ne' _ _ _ _ (h1 fuel (by omega)) (h2 fuel (by omega))
    (h3 fuel (by omega)) (h4 fuel (by omega)) (h5' fuel (by omega)) (onGrid_values ..)
    (onGrid_values ..) (onGrid_values ..) (onGrid_values ..)
  rw [hv, range_map_getD _ _ (alignedAt_past s 360 780 5)] at hint
  have hf5 := (Nat.floor_eq_iff' (by norm_num)).1 h5
  have ha : -1 < i := by
    have := hf5.1; push_cast at this; linarith
  have hb : i < 2 ^ 64 := lt_of_lt_of_le hf5.2 (by norm_num)
  have hu : Flt.toUsize i = some 5 := by rw [flt_toUsize, if_pos ⟨ha, hb⟩, h5]
  rw [h0 fuel (by omega) s]
  unfold toXyzTail
  rw [hi]
  dsimp only
  rw [hu]
  simp only [unwrap, bind, Except.bind]
  exact hint

theorem alignedCount_congr (s t : VSPD ℝ) (h : s.shape = t.shape) (lo hi i : ℝ) :
    alignedCount s lo hi i = alignedCount t lo hi i := by
  unfold alignedCount
  rw [h]

/-- C69 [R]: a spectrum with a varying interval, whatever its range: the sums run over 1 nm steps from
the spectrum's start, pairing the k-th sample of the resampled spectrum (0 past its end) with the k-th
samples of the tables as `align` continues them to the spectrum's range. -/
theorem C69_varying_off_grid (s il : VSPD ℝ) (cmf : CMF ℝ) (ht : Tables il cmf)
    (hi : s.shape.interval = .varying) (hs : Meets s 360 780) (h1 : s.shape.start + 1 ≤ s.shape.end)
    (hfit : s.shape.end - s.shape.start < 2 ^ 64) :
    ∃ N, ∀ fuel, N ≤ fuel → s.toXyz fuel il cmf =
      let g (t : VSPD ℝ) : ℕ → ℝ := alignedAt (table t) s.shape.start s.shape.end 1
      .ok (Spec.xyz (alignedCount (table il) s.shape.start s.shape.end 1)
        (fun k => if (k:ℝ) ≤ s.shape.end - s.shape.start then resampled s (s.shape.start + k) else 0)
        (g il) (g cmf.xBar) (g cmf.yBar) (g cmf.zBar)) := by
  obtain ⟨N0, h0⟩ := toXyz_prefix il cmf ht
  have hov := hs.overlap
  set lo := s.shape.start with hlo
  set hi' := s.shape.end with hhi
  set n := ⌊hi' - lo⌋₊ + 1 with hn
  have hfl : ((⌊hi' - lo⌋₊ : ℕ) : ℝ) ≤ hi' - lo := Nat.floor_le (by linarith)
  have hfl2 : hi' - lo < (⌊hi' - lo⌋₊ : ℕ) + 1 := Nat.lt_floor_add_one _
  have hn2 : 2 ≤ n := by
    have : 1 ≤ ⌊hi' - lo⌋₊ := Nat.le_floor (by push_cast; linarith)
    omega
  have hn' : ⌊(hi' - lo) / 1⌋₊ + 1 = n := by rw [div_one]
  have hfit' : (hi' - lo) / 1 < 2 ^ 64 := by rw [div_one]; exact hfit
  have hcast : ((n : ℕ) : ℝ) = (⌊hi' - lo⌋₊ : ℕ) + 1 := by rw [hn]; push_cast; ring
  have hspan : Spans s lo hi' 1 := ⟨hs.two, hs.asc, hs.start, hs.stop, by
    rw [max_self, min_self]; linarith, Or.inl le_rfl, Or.inl le_rfl⟩
  obtain ⟨N1, h1'⟩ := hspan.align one_pos n hn' hfit'
  obtain ⟨N6, h6⟩ := onGrid_align lo hi' 1 n (resampled s) one_pos hn2
    (by rw [hcast]; linarith) lo hi' 1 n one_pos le_rfl le_rfl (by linarith) hn' hfit'
  have hm : ∀ t : VSPD ℝ, Meets (table t) lo hi' := by
    intro t
    have := flatTable_spans (resampled t)
    refine ⟨this.two, this.asc, this.start, this.stop, ?_⟩
    show max lo 360 ≤ min hi' 780
    rw [max_comm, min_comm]; exact hov
  have hta : ∀ t : VSPD ℝ, ∃ (N : ℕ) (r : VSPD ℝ),
      (∀ fuel, N ≤ fuel → (table t).align fuel (SpdShape.new lo hi' 1) = .ok r) ∧
      r.values = (List.range (alignedCount (table il) lo hi' 1)).map (alignedAt (table t) lo hi' 1) := by
    intro t
    obtain ⟨N, r, a, -, b⟩ := align_values (table t) lo hi' 1 (hm t) one_pos hfit'
    exact ⟨N, r, a, b.trans (by rw [alignedCount_congr (table t) (table il) rfl])⟩
  obtain ⟨N2, r2, e2, v2⟩ := hta il
  obtain ⟨N3, r3, e3, v3⟩ := hta cmf.xBar
  obtain ⟨N4, r4, e4, v4⟩ := hta cmf.yBar
  obtain ⟨N5, r5, e5, v5⟩ := hta cmf.zBar
  refine ⟨max N0 (max (max N1 N2) (max N3 (max N4 (max N5 N6)))), fun fuel hf => ?_⟩
  have hre : onGrid lo hi' 1 n (resampled (onGrid lo hi' 1 n (resampled s))) =
      onGrid lo hi' 1 n (resampled s) :=
    onGrid_congr _ _ _ _ _ _ fun k hk => resampled_onGrid lo hi' 1 n _ one_pos hn2
      (by rw [hcast]; linarith) k hk _ rfl
  have h6' := h6 fuel (by omega)
  rw [hre] at h6'
  have hint := integration_list fuel (onGrid lo hi' 1 n (resampled s)) (table il) _ _ _ _ _
    (ctable cmf) lo hi' 1 _ one_ne_zero _ _ _ _ h6' (e2 fuel (by omega))
    (e3 fuel (by omega)) (e4 fuel (by omega)) (e5 fuel (by omega)) v2 v3 v4 v5
  have hR : (fun k => (onGrid lo hi' 1 n (resampled s)).values.getD k 0) =
      fun k : ℕ => if (k:ℝ) ≤ hi' - lo then resampled s (lo + k) else 0 := by
    funext k
    rw [onGrid_values]
    by_cases hk : k < n
    · rw [List.getD_eq_getElem _ _ (by simpa using hk), if_pos]
      · simp
      · have : (k:ℝ) ≤ (⌊hi' - lo⌋₊ : ℕ) := by exact_mod_cast (by omega : k ≤ ⌊hi' - lo⌋₊)
        linarith
    · rw [List.getD_eq_default _ _ (by simpa using hk), if_neg]
      have : ((⌊hi' - lo⌋₊ : ℕ) : ℝ) + 1 ≤ k := by exact_mod_cast (by omega : ⌊hi' - lo⌋₊ + 1 ≤ k)
      linarith
  rw [hR] at hint
  rw [h0 fuel (by omega) s]
  unfold toXyzTail
  rw [hi]
  dsimp only
  rw [h1' fuel (by omega)]
  simp only [bind, Except.bind]
  exact hint

theorem dotSum_short (u v : List ℝ) (m : ℕ) (hu : u.length = m + 1) (hv : v.length = m) :
    dotSum u v = ∑ k ∈ Finset.range (m + 1), u.getD k 0 * v.getD k 0 := by
  rw [dotSum_eq, Finset.sum_range_succ, List.getD_eq_default v _ (by omega), mul_zero, add_zero,
    ← list_sum_range]
  congr 1
  apply List.ext_getElem
  · simp [hu, hv]
  · intro k hk hk'
    simp only [List.length_map, List.length_range] at hk'
    rw [List.getElem_zipWith, List.getElem_map, List.getElem_range,
      List.getD_eq_getElem _ _ (by omega), List.getD_eq_getElem _ _ (by omega)]

/-- the 10 nm path, in closed form, for trimmed samples `sp` between the grid points -/
theorem weights_off (fuel : ℕ) (s sp il : VSPD ℝ) (cmf : CMF ℝ) (A m : ℕ) (δ : ℝ) (hδ : 0 < δ) (hδ1 : δ < 1)
    (hi : s.shape.interval = .uniform 10)
    (htrim : s.trim (SpdShape.new 360 780 1) = .ok sp) (hm : sp.values.length = m) (hm0 : 0 < m)
    (hAm : A + m ≤ 42) (hst : sp.shape.start = 360 + (A + δ) * 10)
    (hen : sp.shape.end = 360 + (A + δ + m - 1) * 10) (R : ℕ → ℝ)
    (hR : ∀ j : ℕ, j < 43 → sp.values.getD (min (j - A) m) 0 = R j) :
    spdToXyzWeights fuel s (table il) (ctable cmf) =
      let g (t : VSPD ℝ) (k : ℕ) : ℝ := resampled t (360 + k)
      .ok (Spec.xyz 421 (Spec.e2022 10 421 R) (g il) (g cmf.xBar) (g cmf.yBar) (g cmf.zBar)) := by
  set B := 42 - A - m with hB
  have hmr : (m:ℝ) = 42 - A - B := by
    have : ((A + m + B : ℕ) : ℝ) = 42 := by
      have : A + m + B = 42 := by omega
      exact_mod_cast this
    push_cast at this; linarith
  obtain ⟨wx, wy, wz, ox, oy, oz, hd, f1, f2, f3, hout⟩ := weights_steps fuel s sp il cmf A B hi htrim (by
      rw [hst, show ((360:ℝ) + (A + δ) * 10 - 360) / 10 = A + δ by ring,
        Nat.floor_eq_iff (by positivity)]
      constructor <;> linarith) (by
      rw [hen, hmr, show ((780:ℝ) - (360 + (A + δ + (42 - A - B) - 1) * 10)) / 10 = B + (1 - δ) by ring,
        Nat.floor_eq_iff (by have : (0:ℝ) ≤ B := Nat.cast_nonneg B
                             linarith)]
      constructor <;> linarith) (by omega)
  have hcalc : ∀ (c : VSPD ℝ) (w o : List ℝ), (table c, w) ∈ [((ctable cmf).xBar, wx),
      ((ctable cmf).yBar, wy), ((ctable cmf).zBar, wz)] → Folded A B w o →
      dotSum o sp.values = Spec.tristimulus 421 (Spec.e2022 10 421 R)
        (fun k => resampled il (360 + k)) (fun k => resampled c (360 + k))
        (fun k => resampled cmf.yBar (360 + k)) := by
    intro c w o hcw hf
    obtain ⟨hw, h2⟩ := hd _ _ hcw
    have ho : o.length = m + 1 := by have := hf.1; omega
    rw [dotSum_short o sp.values m ho hm]
    have h1 := hf.dot (by omega) (fun k => sp.values.getD k 0)
    rw [ho, hw, Nat.add_sub_cancel] at h1
    rw [h1, Finset.sum_congr rfl fun j hj => by rw [hR j (Finset.mem_range.1 hj)], h2 R]
    unfold Spec.tristimulus
    congr 1
    · congr 1
      refine Finset.sum_congr rfl fun j hj => ?_
      have hj := Finset.mem_range.1 hj
      rw [table_values_getD _ j hj, table_values_getD _ j hj]
      ring
    · refine Finset.sum_congr rfl fun j hj => ?_
      have hj := Finset.mem_range.1 hj
      rw [table_values_getD _ j hj, table_values_getD _ j hj]
  rw [hout, hcalc cmf.xBar wx ox (by simp) f1, hcalc cmf.yBar wy oy (by simp) f2,
    hcalc cmf.zBar wz oz (by simp) f3]
  rfl

/-- C69 [R]: with an interval of exactly 10 nm and samples between the points of the grid 360 + 10k
(each `10 * δ` nm past one), the samples in 360..780 count as if each lay on the grid point before it;
the grid points before them count with the first value, and those after them, to which the last value
should be held, with 0. -/
theorem C69_ten_nm_off_grid (s il : VSPD ℝ) (cmf : CMF ℝ) (ht : Tables il cmf)
    (hi : s.shape.interval = .uniform 10) (a : ℤ) (δ : ℝ) (hδ : 0 < δ) (hδ1 : δ < 1)
    (hu : ∀ (k : ℕ) (p : Sample ℝ), s.samples[k]? = some p → p.nm = 360 + (a + δ + k) * 10)
    (hlo : a ≤ 41) (hhi : 0 < a + s.samples.length) (hne : 0 < s.samples.length) :
    ∃ N, ∀ fuel, N ≤ fuel → s.toXyz fuel il cmf =
      let g (t : VSPD ℝ) (k : ℕ) : ℝ := resampled t (360 + k)
      .ok (Spec.xyz 421 (Spec.e2022 10 421 fun j =>
          if (j:ℤ) < min (a + s.samples.length) 42 then s.values.getD ((j:ℤ) - a).toNat 0 else 0)
        (g il) (g cmf.xBar) (g cmf.yBar) (g cmf.zBar)) := by
  obtain ⟨N0, h0⟩ := toXyz_prefix il cmf ht
  refine ⟨N0, fun fuel hf => ?_⟩
  set n := s.samples.length with hn
  set d := (-a).toNat with hd
  set A := a.toNat with hA
  set m := min n (42 - a).toNat - d with hm
  have hm0 : 0 < m := by omega
  have hdm : d + m ≤ n := by omega
  have hAm : A + m ≤ 42 := by omega
  have hAd : (a:ℝ) + d = A := by
    have : a + d = A := by omega
    exact_mod_cast this
  have hasc : s.wavelengths.Pairwise (· ≤ ·) := by
    rw [List.pairwise_iff_getElem]
    intro i j hi hj hij
    simp only [VSPD.wavelengths, List.length_map] at hi hj
    simp only [VSPD.wavelengths, List.getElem_map]
    rw [hu i _ (List.getElem?_eq_getElem hi), hu j _ (List.getElem?_eq_getElem hj)]
    have : (i:ℝ) < j := by exact_mod_cast hij
    linarith
  have hwin : s.samples.filter (fun p => decide ((SpdShape.new (360:ℝ) 780 1).start ≤ p.nm ∧
      p.nm ≤ (SpdShape.new (360:ℝ) 780 1).end)) = (s.samples.drop d).take m := by
    apply filter_window _ _ _ _ hdm
    intro k p hp
    have hk := (List.getElem?_eq_some_iff.1 hp).1
    rw [hu k p hp, decide_eq_true_iff]
    show ((360:ℝ) ≤ 360 + (a + δ + k) * 10 ∧ 360 + ((a:ℝ) + δ + k) * 10 ≤ 780) ↔ _
    have e1 : ((360:ℝ) ≤ 360 + (a + δ + k) * 10) ↔ 0 ≤ a + k := by
      constructor
      · intro h
        have : ((-1 : ℤ) : ℝ) < (a + k : ℤ) := by push_cast; linarith
        have := Int.cast_lt.1 this
        omega
      · intro h
        have : ((0 : ℤ) : ℝ) ≤ (a + k : ℤ) := by exact_mod_cast h
        push_cast at this; linarith
    have e2 : (360 + ((a:ℝ) + δ + k) * 10 ≤ 780) ↔ a + k ≤ 41 := by
      constructor
      · intro h
        have : ((a + k : ℤ) : ℝ) < (42 : ℤ) := by push_cast; linarith
        have := Int.cast_lt.1 this
        omega
      · intro h
        have : ((a + k : ℤ) : ℝ) ≤ (41 : ℤ) := by exact_mod_cast h
        push_cast at this; linarith
    rw [e1, e2]
    omega
  obtain ⟨sp, f, l, htrim, hsamp, hfirst, hlast, hst, hen, -⟩ := (C47_trim s (SpdShape.new 360 780 1)
    hasc).2 (by
      have hmem : s.samples[d] ∈ s.samples.filter (fun p =>
          decide ((SpdShape.new (360:ℝ) 780 1).start ≤ p.nm ∧ p.nm ≤ (SpdShape.new (360:ℝ) 780 1).end)) := by
        rw [hwin]
        refine List.mem_iff_getElem?.2 ⟨0, ?_⟩
        rw [List.getElem?_take, if_pos hm0, List.getElem?_drop, List.getElem?_eq_getElem (by omega)]
        rfl
      have := (List.mem_filter.1 hmem)
      exact ⟨_, this.1, of_decide_eq_true this.2⟩)
  rw [hwin] at hsamp
  have hlen : sp.samples.length = m := by rw [hsamp]; simp; omega
  have hget : ∀ k, k < m → sp.samples[k]? = s.samples[d + k]? := by
    intro k hk
    rw [hsamp, List.getElem?_take, if_pos hk, List.getElem?_drop]
  have hgetD : ∀ k, k < m → sp.values.getD k 0 = s.values.getD (d + k) 0 := by
    intro k hk
    simp only [VSPD.values, List.getD_eq_getElem?_getD, List.getElem?_map, hget k hk]
  have hvl : sp.values.length = m := by simpa [VSPD.values] using hlen
  have hf' : f.nm = 360 + (A + δ) * 10 := by
    rw [List.head?_eq_getElem?, hget 0 hm0] at hfirst
    rw [hu _ _ hfirst]
    push_cast
    rw [← hAd]; ring
  have hl' : l.nm = 360 + (A + δ + m - 1) * 10 := by
    rw [List.getLast?_eq_getElem?, hlen, hget (m - 1) (by omega)] at hlast
    rw [hu _ _ hlast]
    push_cast [Nat.cast_sub (show 1 ≤ m from hm0)]
    rw [← hAd]; ring
  have hR : ∀ j : ℕ, j < 43 → sp.values.getD (min (j - A) m) 0 =
      if (j:ℤ) < min (a + n) 42 then s.values.getD ((j:ℤ) - a).toNat 0 else 0 := by
    intro j hj
    by_cases hc : (j:ℤ) < min (a + n) 42
    · rw [if_pos hc, hgetD _ (by omega)]
      congr 1
      omega
    · rw [if_neg hc, List.getD_eq_default _ _ (by omega)]
  have hw := weights_off fuel s sp il cmf A m δ hδ hδ1 hi htrim hvl hm0 hAm
    (by rw [hst, hf']) (by rw [hen, hl']) _ hR
  have hu10 : Flt.toUsize (10:ℝ) = some 10 := by
    rw [flt_toUsize, if_pos ⟨by norm_num, by norm_num⟩]; norm_num
  rw [h0 fuel hf s]
  unfold toXyzTail
  rw [hi]
  dsimp only
  rw [hu10]
  simp only [unwrap, bind, Except.bind]
  exact hw

/-! ## C54: the perfect diffuser, wherever its samples lie -/

theorem tristimulus_short (n c : ℕ) (hc : c ≤ n) (R S y : ℕ → ℝ) (v : ℝ)
    (hR : ∀ k, k < n → R k = if k < c then v else 0) : Spec.tristimulus n R S y y =
      100 * v * (∑ k ∈ Finset.range c, S k * y k) / ∑ k ∈ Finset.range n, S k * y k := by
  unfold Spec.tristimulus
  congr 1
  rw [mul_assoc]
  congr 1
  symm
  rw [Finset.mul_sum, Finset.sum_congr rfl fun k hk => show v * (S k * y k) = R k * S k * y k by
    have hk := Finset.mem_range.1 hk
    rw [hR k (by omega), if_pos hk]; ring]
  refine Finset.sum_subset (fun k hk => ?_) (fun k hk hk' => ?_)
  · have := Finset.mem_range.1 hk; exact Finset.mem_range.2 (by omega)
  · have h1 := Finset.mem_range.1 hk
    rw [Finset.mem_range] at hk'
    rw [hR k h1, if_neg hk']; ring

theorem alignedAt_const (s : VSPD ℝ) (lo hi i v : ℝ) (h : Meets s lo hi) (h6 : 6 ≤ s.samples.length)
    (hv : ∀ p ∈ s.samples, p.v = v) (k : ℕ) :
    alignedAt s lo hi i k = if k < alignedCount s lo hi i then v else 0 := by
  unfold alignedAt
  by_cases hk : k < alignedCount s lo hi i
  · rw [if_neg (by omega), if_pos hk]
    exact resampled_const s v h6 hv h.asc h.start h.stop _
  · rw [if_pos (by omega), if_neg hk]

theorem fract_360 (x : ℝ) : Int.fract (-((x - 360) / 1)) = Int.fract (-x) := by
  rw [show -((x - 360) / 1) = -x + (360 : ℤ) by push_cast; ring, Int.fract_add_intCast]

/-- C54 [R]: the 1 nm path, for any constant spectrum of at least six samples that meets 360..780. The
numerator has all 421 terms, and `y = 100 * v`, if the end of the covered range falls short of a whole
nanometre by no more than its start does; otherwise the term of 780 nm is missing. -/
theorem C54_one_nm_exact (s il : VSPD ℝ) (cmf : CMF ℝ) (v : ℝ) (ht : Tables il cmf)
    (hs : Meets s 360 780) (i : ℝ) (hi : s.shape.interval = .uniform i) (hi1 : -1 < i)
    (hi2 : i < 2 ^ 64) (h5 : ⌊i⌋₊ ≠ 5) (h10 : ⌊i⌋₊ ≠ 10) (h6 : 6 ≤ s.samples.length)
    (hv : ∀ p ∈ s.samples, p.v = v) (c : ℕ)
    (hc : c = if Int.fract (-(min 780 s.shape.end)) ≤ Int.fract (-(max 360 s.shape.start))
      then 421 else 420) :
    let w (k : ℕ) : ℝ := resampled il (360 + k) * resampled cmf.yBar (360 + k)
    ∃ N, ∀ fuel, N ≤ fuel → ∃ r, s.toXyz fuel il cmf = .ok r ∧
      r.y = 100 * v * (∑ k ∈ Finset.range c, w k) / ∑ k ∈ Finset.range 421, w k := by
  obtain ⟨N, h⟩ := C69_one_nm_off_grid s il cmf ht hs i hi hi1 hi2 h5 h10
  have hcount : alignedCount s 360 780 1 = c := by
    rw [alignedCount_eq s 360 780 1 420 hs one_pos (by norm_num), fract_360, fract_360, hc]
  refine ⟨N, fun fuel hf => ⟨_, h fuel hf, ?_⟩⟩
  refine tristimulus_short 421 c (by rw [hc]; split <;> omega) _ _ _ v fun k _ => ?_
  rw [alignedAt_const s 360 780 1 v hs h6 hv, hcount]

/-- C54 [R]: on the 1 nm path, a spectrum constantly `v` (not 0, at least six samples) has
`y = 100 * v` exactly when the end of the range it shares with 360..780 falls short of a whole nanometre
by no more than its start does (in particular when it reaches 780, or lies on whole nanometres). -/
theorem C54_one_nm_iff (s il : VSPD ℝ) (cmf : CMF ℝ) (v : ℝ) (ht : Tables il cmf)
    (hs : Meets s 360 780) (i : ℝ) (hi : s.shape.interval = .uniform i) (hi1 : -1 < i)
    (hi2 : i < 2 ^ 64) (h5 : ⌊i⌋₊ ≠ 5) (h10 : ⌊i⌋₊ ≠ 10) (h6 : 6 ≤ s.samples.length)
    (hv : ∀ p ∈ s.samples, p.v = v) (hv0 : v ≠ 0)
    (hne : ∑ k ∈ Finset.range 421, resampled il (360 + k) * resampled cmf.yBar (360 + k) ≠ 0)
    (hend : resampled il 780 * resampled cmf.yBar 780 ≠ 0) :
    ∃ N, ∀ fuel, N ≤ fuel → ∃ r, s.toXyz fuel il cmf = .ok r ∧
      (r.y = 100 * v ↔ Int.fract (-(min 780 s.shape.end)) ≤ Int.fract (-(max 360 s.shape.start))) := by
  obtain ⟨N, h⟩ := C54_one_nm_exact s il cmf v ht hs i hi hi1 hi2 h5 h10 h6 hv _ rfl
  refine ⟨N, fun fuel hf => ?_⟩
  obtain ⟨r, h1, h2⟩ := h fuel hf
  refine ⟨r, h1, ?_⟩
  rw [h2]
  by_cases hc : Int.fract (-(min 780 s.shape.end)) ≤ Int.fract (-(max 360 s.shape.start))
  · rw [if_pos hc]
    refine ⟨fun _ => hc, fun _ => ?_⟩
    field_simp
  · rw [if_neg hc]
    refine ⟨fun he => absurd ?_ hend, fun he => absurd he hc⟩
    rw [div_eq_iff hne, Finset.sum_range_succ (n := 420)] at he
    have h100 : (100:ℝ) * v ≠ 0 := mul_ne_zero (by norm_num) hv0
    have := mul_left_cancel₀ h100 he
    push_cast at this
    rw [show (360:ℝ) + 420 = 780 by norm_num] at this
    linarith

/-- C54 [R]: the same for the 5 nm path, in steps of 5 nm from 360. -/
theorem C54_five_nm_exact (s il : VSPD ℝ) (cmf : CMF ℝ) (v : ℝ) (ht : Tables il cmf)
    (hs : Meets s 360 780) (i : ℝ) (hi : s.shape.interval = .uniform i) (h5 : ⌊i⌋₊ = 5)
    (h6 : 6 ≤ s.samples.length) (hv : ∀ p ∈ s.samples, p.v = v) (c : ℕ)
    (hc : c = if Int.fract (-((min 780 s.shape.end - 360) / 5)) ≤
      Int.fract (-((max 360 s.shape.start - 360) / 5)) then 85 else 84) :
    let w (k : ℕ) : ℝ := resampled il (360 + k * 5) * resampled cmf.yBar (360 + k * 5)
    ∃ N, ∀ fuel, N ≤ fuel → ∃ r, s.toXyz fuel il cmf = .ok r ∧
      r.y = 100 * v * (∑ k ∈ Finset.range c, w k) / ∑ k ∈ Finset.range 85, w k := by
  obtain ⟨N, h⟩ := C69_five_nm_off_grid s il cmf ht hs i hi h5
  have hcount : alignedCount s 360 780 5 = c := by
    rw [alignedCount_eq s 360 780 5 84 hs (by norm_num) (by norm_num), hc]
  refine ⟨N, fun fuel hf => ⟨_, h fuel hf, ?_⟩⟩
  refine tristimulus_short 85 c (by rw [hc]; split <;> omega) _ _ _ v fun k _ => ?_
  rw [alignedAt_const s 360 780 5 v hs h6 hv, hcount]

/-- C54 [R]: the 10 nm path, samples between the points of the grid 360 + 10k: the value is that of a
reflectance that is `v` up to the last sample and 0 on the grid points after it. -/
theorem C54_ten_nm_off_grid (s il : VSPD ℝ) (cmf : CMF ℝ) (v : ℝ) (ht : Tables il cmf)
    (hi : s.shape.interval = .uniform 10) (a : ℤ) (δ : ℝ) (hδ : 0 < δ) (hδ1 : δ < 1)
    (hu : ∀ (k : ℕ) (p : Sample ℝ), s.samples[k]? = some p → p.nm = 360 + (a + δ + k) * 10)
    (hlo : a ≤ 41) (hhi : 0 < a + s.samples.length) (hne : 0 < s.samples.length)
    (hv : ∀ p ∈ s.samples, p.v = v) :
    ∃ N, ∀ fuel, N ≤ fuel → ∃ r, s.toXyz fuel il cmf = .ok r ∧
      r.y = Spec.tristimulus 421
        (Spec.e2022 10 421 fun j => if (j:ℤ) < min (a + s.samples.length) 42 then v else 0)
        (fun k => resampled il (360 + k)) (fun k => resampled cmf.yBar (360 + k))
        (fun k => resampled cmf.yBar (360 + k)) := by
  obtain ⟨N, h⟩ := C69_ten_nm_off_grid s il cmf ht hi a δ hδ hδ1 hu hlo hhi hne
  refine ⟨N, fun fuel hf => ⟨_, h fuel hf, ?_⟩⟩
  show Spec.tristimulus 421 (Spec.e2022 10 421 _) _ _ _ = _
  congr 2
  funext j
  by_cases hc : (j:ℤ) < min (a + s.samples.length) 42
  · rw [if_pos hc, if_pos hc]
    have hl : s.values.length = s.samples.length := by simp [VSPD.values]
    rw [List.getD_eq_getElem _ _ (by omega)]
    simp only [VSPD.values, List.getElem_map]
    exact hv _ (List.getElem_mem _)
  · rw [if_neg hc, if_neg hc]

/-- C54 [R]: a varying interval, any range that meets 360..780: the numerator has the terms of the
1 nm steps within the spectrum, the denominator those of the aligned tables, of which there may be one
more when the spectrum starts before 360. -/
theorem C54_varying_exact (s il : VSPD ℝ) (cmf : CMF ℝ) (v : ℝ) (ht : Tables il cmf)
    (hi : s.shape.interval = .varying) (hs : Meets s 360 780) (h6 : 6 ≤ s.samples.length)
    (h1 : s.shape.start + 1 ≤ s.shape.end) (hfit : s.shape.end - s.shape.start < 2 ^ 64)
    (hv : ∀ p ∈ s.samples, p.v = v) (n c : ℕ) (hn : n = ⌊s.shape.end - s.shape.start⌋₊ + 1)
    (hc : c = ⌈max s.shape.start 360 - s.shape.start⌉₊ +
      (⌊min s.shape.end 780 - max s.shape.start 360⌋₊ + 1) + ⌊s.shape.end - min s.shape.end 780⌋₊) :
    let g (t : VSPD ℝ) : ℕ → ℝ := alignedAt (table t) s.shape.start s.shape.end 1
    let w (k : ℕ) : ℝ := g il k * g cmf.yBar k
    ∃ N, ∀ fuel, N ≤ fuel → ∃ r, s.toXyz fuel il cmf = .ok r ∧
      r.y = 100 * v * (∑ k ∈ Finset.range (min n c), w k) / ∑ k ∈ Finset.range c, w k := by
  obtain ⟨N, h⟩ := C69_varying_off_grid s il cmf ht hi hs h1 hfit
  have hcount : alignedCount (table il) s.shape.start s.shape.end 1 = c := by
    rw [hc]
    unfold alignedCount
    simp only [div_one]
    rfl
  refine ⟨N, fun fuel hf => ⟨_, h fuel hf, ?_⟩⟩
  show Spec.tristimulus _ _ _ _ _ = _
  rw [hcount]
  refine tristimulus_short c (min n c) (by omega) _ _ _ v fun k hk => ?_
  have hd : 0 ≤ s.shape.end - s.shape.start := by linarith
  have hiff : (k:ℝ) ≤ s.shape.end - s.shape.start ↔ k < min n c := by
    rw [← Nat.le_floor_iff hd]; omega
  by_cases hkk : k < min n c
  · rw [if_pos (hiff.2 hkk), if_pos hkk]
    exact resampled_const s v h6 hv hs.asc hs.start hs.stop _
  · rw [if_neg (fun hc => hkk (hiff.1 hc)), if_neg hkk]

/-- C54 [R]: hence a varying spectrum that does not start before 360 has `y = 100 * v`. -/
theorem C54_varying (s il : VSPD ℝ) (cmf : CMF ℝ) (v : ℝ) (ht : Tables il cmf)
    (hi : s.shape.interval = .varying) (hs : Meets s 360 780) (h6 : 6 ≤ s.samples.length)
    (h1 : s.shape.start + 1 ≤ s.shape.end) (hfit : s.shape.end - s.shape.start < 2 ^ 64)
    (hv : ∀ p ∈ s.samples, p.v = v) (h360 : 360 ≤ s.shape.start)
    (hne : ∑ k ∈ Finset.range (alignedCount (table il) s.shape.start s.shape.end 1),
      alignedAt (table il) s.shape.start s.shape.end 1 k *
        alignedAt (table cmf.yBar) s.shape.start s.shape.end 1 k ≠ 0) :
    ∃ N, ∀ fuel, N ≤ fuel → ∃ r, s.toXyz fuel il cmf = .ok r ∧ r.y = 100 * v := by
  obtain ⟨N, h⟩ := C54_varying_exact s il cmf v ht hi hs h6 h1 hfit hv _ _ rfl rfl
  refine ⟨N, fun fuel hf => ?_⟩
  obtain ⟨r, hr, hy⟩ := h fuel hf
  refine ⟨r, hr, ?_⟩
  have hcount : alignedCount (table il) s.shape.start s.shape.end 1 =
      ⌈max s.shape.start 360 - s.shape.start⌉₊ +
      (⌊min s.shape.end 780 - max s.shape.start 360⌋₊ + 1) + ⌊s.shape.end - min s.shape.end 780⌋₊ := by
    unfold alignedCount
    simp only [div_one]
    rfl
  rw [hy]
  have hov := hs.overlap
  rw [max_eq_right h360] at hov
  have hle : ⌈max s.shape.start 360 - s.shape.start⌉₊ +
      (⌊min s.shape.end 780 - max s.shape.start 360⌋₊ + 1) + ⌊s.shape.end - min s.shape.end 780⌋₊ ≤
      ⌊s.shape.end - s.shape.start⌋₊ + 1 := by
    rw [max_eq_left h360, sub_self, Nat.ceil_zero, min_comm s.shape.end 780]
    have a1 := Nat.floor_le (show 0 ≤ min 780 s.shape.end - s.shape.start by linarith)
    have a2 := Nat.floor_le (show 0 ≤ s.shape.end - min 780 s.shape.end by
      linarith [min_le_right 780 s.shape.end])
    have : ⌊min 780 s.shape.end - s.shape.start⌋₊ + ⌊s.shape.end - min 780 s.shape.end⌋₊ ≤
        ⌊s.shape.end - s.shape.start⌋₊ := Nat.le_floor (by push_cast; linarith)
    omega
  rw [Nat.min_eq_right hle, ← hcount]
  field_simp

theorem onGrid_meets (lo hi i : ℝ) (n : ℕ) (f : ℝ → ℝ) (hpos : 0 < i) (h2 : 2 ≤ n)
    (hhi : hi = lo + ((n:ℝ) - 1) * i) (lo' hi' : ℝ) (hov : max lo' lo ≤ min hi' hi) (hle : lo ≤ hi) :
    Meets (onGrid lo hi i n f) lo' hi' := by
  have := onGrid_spans lo hi i n f hpos h2 hhi lo hi i (by simpa using hle) (Or.inl le_rfl)
    (Or.inl le_rfl)
  exact ⟨this.two, this.asc, this.start, this.stop, hov⟩

theorem onGrid_constant (lo hi i : ℝ) (n : ℕ) (v : ℝ) :
    ∀ p ∈ (onGrid lo hi i n fun _ => v).samples, p.v = v := by
  intro p hp
  simp only [onGrid, List.mem_map] at hp
  obtain ⟨k, -, rfl⟩ := hp
  rfl

/-- C54 [R], counterexample on the 1 nm path: a reflectance of 1 at 355.5, 375.5, ..., 755.5 nm, with
flat tables, has `y = 42000 / 421`, about 99.76: `align` makes 420 samples of it. -/
theorem C54_one_nm_counterexample : ∃ N, ∀ fuel, N ≤ fuel → ∃ r,
    (onGrid 355.5 755.5 20 21 fun _ => 1).toXyz fuel (flatTable 5)
      ⟨flatTable 2, flatTable 1, flatTable 3⟩ = .ok r ∧ r.y = 42000 / 421 := by
  obtain ⟨N, h⟩ := C54_one_nm_exact (onGrid 355.5 755.5 20 21 fun _ => 1) (flatTable 5)
    ⟨flatTable 2, flatTable 1, flatTable 3⟩ 1 flat_tables
    (onGrid_meets _ _ _ _ _ (by norm_num) (by norm_num) (by norm_num) _ _ (by norm_num) (by norm_num))
    20 rfl (by norm_num) (by norm_num) (by norm_num) (by norm_num) (by rw [onGrid_length]; norm_num)
    (onGrid_constant _ _ _ _ _) 420 (by
      rw [if_neg]
      show ¬ Int.fract (-(min 780 755.5 : ℝ)) ≤ Int.fract (-(max 360 355.5 : ℝ))
      have e1 : (-(min 780 755.5 : ℝ)) = 0.5 - (756:ℤ) := by norm_num
      have e2 : (-(max 360 355.5 : ℝ)) = 0 - (360:ℤ) := by norm_num
      rw [e1, e2, Int.fract_sub_intCast, Int.fract_sub_intCast, Int.fract_eq_self.2 (by norm_num),
        Int.fract_eq_self.2 (by norm_num)]
      norm_num)
  refine ⟨N, fun fuel hf => ?_⟩
  obtain ⟨r, h1, h2⟩ := h fuel hf
  refine ⟨r, h1, ?_⟩
  have hw : ∀ n ≤ 421, ∑ k ∈ Finset.range n, resampled (flatTable 5) (360 + k) *
      resampled (flatTable 1) (360 + k) = n * 5 := by
    intro n hn
    rw [Finset.sum_congr rfl fun k hk => by
      have hk := Finset.mem_range.1 hk
      rw [onGrid_resampled_table (fun _ => (5:ℝ)) k (by omega),
        onGrid_resampled_table (fun _ => (1:ℝ)) k (by omega)]]
    simp
  rw [h2]
  dsimp only
  rw [hw 420 (by norm_num), hw 421 le_rfl]
  norm_num

/-- Not vacuous: half a nanometre off the grid at both ends, `y` is right; at 402, 407, ..., 702 nm on
the 5 nm path too. -/
example : (∃ N, ∀ fuel, N ≤ fuel → ∃ r, (onGrid 400.5 700.5 20 16 fun _ => 0.5).toXyz fuel (flatTable 5)
      ⟨flatTable 2, flatTable 1, flatTable 3⟩ = .ok r ∧ (r.y = 100 * 0.5 ↔ True)) ∧
    (∃ N, ∀ fuel, N ≤ fuel → ∃ r, (onGrid 402 702 5 61 fun _ => 0.5).toXyz fuel (flatTable 5)
      ⟨flatTable 2, flatTable 1, flatTable 3⟩ = .ok r ∧ r.y = 100 * 0.5) := by
  constructor
  · obtain ⟨N, h⟩ := C54_one_nm_iff (onGrid 400.5 700.5 20 16 fun _ => 0.5) (flatTable 5)
      ⟨flatTable 2, flatTable 1, flatTable 3⟩ 0.5 flat_tables
      (onGrid_meets _ _ _ _ _ (by norm_num) (by norm_num) (by norm_num) _ _ (by norm_num) (by norm_num))
      20 rfl (by norm_num) (by norm_num) (by norm_num) (by norm_num) (by rw [onGrid_length]; norm_num)
      (onGrid_constant _ _ _ _ _) (by norm_num) (by simpa using flat_sum 1 421 (by norm_num) (by norm_num)) (by
        have e1 := onGrid_resampled_table (fun _ => (5:ℝ)) 420 (by norm_num)
        have e2 := onGrid_resampled_table (fun _ => (1:ℝ)) 420 (by norm_num)
        norm_num at e1 e2
        rw [e1, e2]; norm_num)
    refine ⟨N, fun fuel hf => ?_⟩
    obtain ⟨r, h1, h2⟩ := h fuel hf
    refine ⟨r, h1, h2.trans (iff_true_intro ?_)⟩
    show Int.fract (-(min 780 700.5 : ℝ)) ≤ Int.fract (-(max 360 400.5 : ℝ))
    have e1 : (-(min 780 700.5 : ℝ)) = 0.5 - (701:ℤ) := by norm_num
    have e2 : (-(max 360 400.5 : ℝ)) = 0.5 - (401:ℤ) := by norm_num
    rw [e1, e2, Int.fract_sub_intCast, Int.fract_sub_intCast]
  · obtain ⟨N, h⟩ := C54_five_nm_exact (onGrid 402 702 5 61 fun _ => 0.5) (flatTable 5)
      ⟨flatTable 2, flatTable 1, flatTable 3⟩ 0.5 flat_tables
      (onGrid_meets _ _ _ _ _ (by norm_num) (by norm_num) (by norm_num) _ _ (by norm_num) (by norm_num))
      5 rfl (by norm_num) (by rw [onGrid_length]; norm_num) (onGrid_constant _ _ _ _ _) 85 (by
        rw [if_pos]
        show Int.fract (-((min 780 702 - 360) / 5 : ℝ)) ≤ Int.fract (-((max 360 402 - 360) / 5 : ℝ))
        have e1 : (-((min 780 702 - 360) / 5 : ℝ)) = 0.6 - (69:ℤ) := by norm_num
        have e2 : (-((max 360 402 - 360) / 5 : ℝ)) = 0.6 - (9:ℤ) := by norm_num
        rw [e1, e2, Int.fract_sub_intCast, Int.fract_sub_intCast])
    refine ⟨N, fun fuel hf => ?_⟩
    obtain ⟨r, h1, h2⟩ := h fuel hf
    refine ⟨r, h1, h2.trans ?_⟩
    have h5 := flat_sum 5 85 (by norm_num) (by norm_num)
    push_cast at h5
    exact mul_div_cancel_right₀ _ h5

/-- Not vacuous: an uneven spectrum between whole nanometres, and a 10 nm one at 385, ..., 735. -/
example : (∃ N, ∀ fuel, N ≤ fuel → ∃ r,
      (⟨[⟨400.5, 1⟩, ⟨410, 1⟩, ⟨420, 1⟩, ⟨433, 1⟩, ⟨440, 1⟩, ⟨450.25, 1⟩], ⟨400.5, 450.25, .varying⟩⟩ :
        VSPD ℝ).toXyz fuel (flatTable 5) ⟨flatTable 2, flatTable 1, flatTable 3⟩ = .ok r ∧ r.y = 100) ∧
    (∃ N, ∀ fuel, N ≤ fuel → ∃ r, (onGrid 385 735 10 36 fun _ => 1).toXyz fuel (flatTable 5)
      ⟨flatTable 2, flatTable 1, flatTable 3⟩ = .ok r) := by
  constructor
  · set s : VSPD ℝ := ⟨[⟨400.5, 1⟩, ⟨410, 1⟩, ⟨420, 1⟩, ⟨433, 1⟩, ⟨440, 1⟩, ⟨450.25, 1⟩],
      ⟨400.5, 450.25, .varying⟩⟩ with hs
    have hm : Meets s 360 780 := ⟨by simp [hs], by simp [hs, VSPD.wavelengths]; norm_num,
      by simp [hs], by simp [hs], by simp [hs]; norm_num⟩
    have hflat : ∀ (v : ℝ) (k : ℕ), k < alignedCount (flatTable v) 400.5 450.25 1 →
        alignedAt (table (flatTable v)) 400.5 450.25 1 k = v := by
      intro v k hk
      have hm' : Meets (flatTable v) 400.5 450.25 :=
        onGrid_meets _ _ _ _ _ (by norm_num) (by norm_num) (by norm_num) _ _ (by norm_num) (by norm_num)
      have he : table (flatTable v) = flatTable v :=
        onGrid_congr _ _ _ _ _ _ fun k hk => resampled_onGrid 360 780 1 421 _ one_pos (by norm_num)
          (by norm_num) k hk _ rfl
      rw [he, alignedAt_const (flatTable v) _ _ _ v hm' (by rw [onGrid_length]; norm_num)
        (onGrid_constant _ _ _ _ _), if_pos hk]
    obtain ⟨N, h⟩ := C54_varying s (flatTable 5) ⟨flatTable 2, flatTable 1, flatTable 3⟩ 1 flat_tables
      rfl hm (by simp [hs]) (by norm_num [hs]) (by norm_num [hs]) (by simp [hs]) (by norm_num [hs]) (by
        have hc : ∀ t, alignedCount (table t) s.shape.start s.shape.end 1 =
            alignedCount (flatTable 5) 400.5 450.25 1 := fun t => alignedCount_congr _ _ rfl _ _ _
        rw [hc, Finset.sum_congr rfl fun k hk => by
          have hk := Finset.mem_range.1 hk
          rw [show s.shape.start = 400.5 from rfl, show s.shape.end = 450.25 from rfl, hflat 5 k hk,
            hflat 1 k (by rw [alignedCount_congr (flatTable 1) (flatTable 5) rfl]; exact hk)]]
        have : 0 < alignedCount (flatTable 5) 400.5 450.25 1 := by unfold alignedCount; omega
        simp; omega)
    exact ⟨N, fun fuel hf => by simpa using h fuel hf⟩
  · obtain ⟨N, h⟩ := C69_ten_nm_off_grid (onGrid 385 735 10 36 fun _ => 1) (flatTable 5)
      ⟨flatTable 2, flatTable 1, flatTable 3⟩ flat_tables rfl 2 0.5 (by norm_num) (by norm_num)
      (fun k p hp => by
        simp only [onGrid, List.getElem?_map, Option.map_eq_some_iff] at hp
        obtain ⟨j, hj, rfl⟩ := hp
        have hj' := (List.getElem?_eq_some_iff.1 hj).2
        simp only [List.getElem_range] at hj'
        subst hj'
        push_cast
        ring) (by norm_num) (by rw [onGrid_length]; norm_num) (by rw [onGrid_length]; norm_num)
    exact ⟨N, fun fuel hf => ⟨_, h fuel hf⟩⟩

end CS

import Verif.Lemmas.Weights

/-!
# ASTM E2022 weighting factors (C51 - C53)
-/

namespace CS

/-! ## C51, C52 -/

theorem through_one (a n : ℕ) (hn : 0 < n) (x : ℝ) : Spec.through a n (fun _ => 1) x = 1 := by
  have h := lagrange_through a n hn (fun _ => 1) (x - a)
  rw [show (a:ℝ) + (x - a) = x by ring] at h
  rw [← h]
  simp only [mul_one]
  rw [← C49_sum_one (x - a) n hn, ← list_sum_range]
  congr 1
  apply List.ext_getElem
  · simp [lagrange_length]
  · intro k h1 h2
    have hk : k < n := by simpa using h1
    simp only [List.getElem_map, List.getElem_range]
    rw [List.getD_eq_getElem]

theorem e2022At_one (p : ℕ → ℝ) (I m i : ℕ) : e2022At p I m (fun _ => 1) i = 1 := by
  unfold e2022At
  simp only [through_one _ 3 (by omega), through_one _ 4 (by omega), ite_self]

/-- for an integer interval the accumulated interpolation is the specified one -/
theorem e2022At_eq (I N : ℕ) (hI : 3 ≤ I) (hN : 2 * I + 1 ≤ N) (R : ℕ → ℝ) (i : ℕ) :
    e2022At (fun j => ((j:ℝ) + 1) / I) I ((N - 1) / I) R i = Spec.e2022 I N R i := by
  have hm2 : 2 ≤ (N - 1) / I := by
    rw [Nat.le_div_iff_mul_le (by omega)]; omega
  unfold e2022At Spec.e2022
  generalize (N - 1) / I = m at *
  dsimp only
  have hI0 : (I:ℝ) ≠ 0 := by
    have : (3:ℝ) ≤ I := by exact_mod_cast hI
    linarith
  have hd := Nat.div_add_mod i I
  have hr := Nat.mod_lt i (show 0 < I by omega)
  have hx : (i:ℝ) / I = (i / I : ℕ) + ((i % I : ℕ) : ℝ) / I := by
    have : (i:ℝ) = I * (i / I : ℕ) + (i % I : ℕ) := by exact_mod_cast hd.symm
    rw [this]; field_simp
  by_cases h1 : I * m ≤ i
  · rw [if_pos h1, if_pos h1]
  rw [if_neg h1, if_neg h1]
  have hq : i / I < m := by
    rw [Nat.div_lt_iff_lt_mul (by omega), Nat.mul_comm]; omega
  have c1 : i < I ↔ i / I = 0 := by
    rw [Nat.div_eq_zero_iff_lt (by omega)]
  have c2 : I * (m - 1) ≤ i ↔ i / I = m - 1 := by
    have : I * (m - 1) ≤ i ↔ m - 1 ≤ i / I := by
      rw [Nat.le_div_iff_mul_le (by omega), Nat.mul_comm]
    omega
  simp only [c1, c2, hx]
  generalize i / I = q at *
  by_cases h2 : i % I = 0
  · rw [if_pos h2, h2]
    simp only [Nat.cast_zero, zero_div, add_zero]
    split
    · subst_vars
      exact (by simpa using through_eval_node 0 3 R 0 (by omega) : Spec.through 0 3 R _ = R 0).symm
    · split
      · have := through_eval_node (m - 2) 3 R 1 (by omega)
        rw [show m - 2 + 1 = q by omega] at this
        exact this.symm
      · have := through_eval_node (q - 1) 4 R 1 (by omega)
        rw [show q - 1 + 1 = q by omega] at this
        exact this.symm
  · rw [if_neg h2]
    have e : ((i % I - 1 : ℕ) : ℝ) + 1 = (i % I : ℕ) := by
      rw [Nat.cast_sub (by omega)]; push_cast; ring
    simp only [e]
    split
    · subst_vars; simp
    · split
      · congr 1
        rw [show I - 1 - i % I = I - (i % I + 1) by omega, Nat.cast_sub (by omega)]
        have : ((m - 1 : ℕ) : ℝ) = m - 1 := by rw [Nat.cast_sub (by omega)]; simp
        subst_vars
        rw [this]
        push_cast
        field_simp
        ring
      · rfl

/-- What `tristimulus_weighting_factors_astme2022` needs of its tables: colour-matching functions and
illuminant at 1 nm, all of `N` samples, and a uniform measurement interval `i` with integer part `I`. -/
structure E2022Input (cmf : CMF ℝ) (il : VSPD ℝ) (shape : SpdShape ℝ) (i : ℝ) (I N : ℕ) : Prop where
  cmf1 : cmf.xBar.shape.interval = .uniform 1
  il1 : il.shape.interval = .uniform 1
  interval : shape.interval = .uniform i
  ge : (I : ℝ) ≤ i
  lt : i < I + 1
  three : 3 ≤ I
  fits : I < 2 ^ 64
  lenX : cmf.xBar.values.length = N
  lenY : cmf.yBar.values.length = N
  lenZ : cmf.zBar.values.length = N
  lenS : il.values.length = N

/-- the division points of the measurement interval -/
noncomputable def e2022Points (i : ℝ) (I j : ℕ) : ℝ := 1 / i + j * ((1 - 2 / i) / (I - 2))

theorem sum_map_mul_right (l : List ℝ) (k : ℝ) : (l.map (· * k)).sum = l.sum * k := by
  induction l with
  | nil => simp
  | cons a l ih => simp [ih]; ring

theorem dotR_map_mul (R : ℕ → ℝ) (l : List ℝ) (k : ℝ) : dotR R (l.map (· * k)) = dotR R l * k := by
  rw [dotR_eq, dotR_eq, List.length_map, Finset.sum_mul]
  refine Finset.sum_congr rfl fun j hj => ?_
  have hj := Finset.mem_range.1 hj
  rw [List.getD_eq_getElem _ _ (by simpa using hj), List.getD_eq_getElem _ _ hj]
  simp only [List.getElem_map]; ring

theorem dotR_one (l : List ℝ) : dotR (fun _ => 1) l = l.sum := by
  unfold dotR
  congr 1
  apply List.ext_getElem
  · simp
  · intro k h1 h2
    simp only [List.getElem_map, List.getElem_range, mul_one]
    rw [List.getD_eq_getElem]

theorem weightsE2022_eq (cmf : CMF ℝ) (il : VSPD ℝ) (shape : SpdShape ℝ) (i : ℝ) (I N : ℕ)
    (h : E2022Input cmf il shape i I N) :
    weightsE2022 cmf il shape = (do
      let cc := (List.range (I - 1)).map fun j => lagrangeCoefficients (e2022Points i I j) 3
      let cb := (List.range (I - 1)).map fun j => lagrangeCoefficients (e2022Points i I j + 1) 4
      let ic := (N + I - 1) / I
      let wx ← weightsChannel il.values cmf.xBar.values cc cb I N ic
      let wy ← weightsChannel il.values cmf.yBar.values cc cb I N ic
      let wz ← weightsChannel il.values cmf.zBar.values cc cb I N ic
      let k := 100 / wy.sum
      .ok (wx.map (· * k), wy.map (· * k), wz.map (· * k))) := by
  have hfl : Flt.asUInt (2 ^ 64 - 1) i = I := by
    rw [flt_asUInt, (Nat.floor_eq_iff (by have := h.ge; have : (0:ℝ) ≤ I := Nat.cast_nonneg I; linarith)).2 ⟨h.ge, h.lt⟩]
    exact Nat.min_eq_right (by have := h.fits; omega)
  have e3 := (C49_e2022 i I 3 h.three h.ge h.lt h.fits).1
  have e4 := (C49_e2022 i I 4 h.three h.ge h.lt h.fits).1
  simp only [show (3 = 4) = False by simp, if_false, add_zero] at e3
  simp only [if_true] at e4
  have hic : (List.zipWith (· * ·) (stepBy I il.values) (stepBy I cmf.xBar.values)).length
      = (N + I - 1) / I := by
    rw [stepBy_eq _ (by have := h.three; omega), stepBy_eq _ (by have := h.three; omega), h.lenS,
      h.lenX]
    simp
  have h100 : (Flt.lit 100.0 : ℝ) = 100 := by norm_num
  have h1 : (Flt.lit 1.0 : ℝ) = 1 := by norm_num
  unfold weightsE2022 CMF.shape
  simp only [h.cmf1, h.il1, h.interval, Interval.eqb, h1, flt_eqb, e3, e4, hfl, hic, h.lenX, h100,
    fsum_eq, decide_true, Bool.not_true, Bool.false_eq_true, if_false]
  rfl

/-- the weights of each channel and what they sum to against any samples -/
theorem weightsE2022_ok (cmf : CMF ℝ) (il : VSPD ℝ) (shape : SpdShape ℝ) (i : ℝ) (I N : ℕ)
    (h : E2022Input cmf il shape i I N) (hN : 2 * I + 1 ≤ N) :
    ∃ wx wy wz, weightsE2022 cmf il shape = .ok (wx, wy, wz) ∧
      wx.length = (N - 1) / I + 1 ∧ wy.length = (N - 1) / I + 1 ∧ wz.length = (N - 1) / I + 1 ∧
      ∀ c w, (c, w) ∈ [(cmf.xBar, wx), (cmf.yBar, wy), (cmf.zBar, wz)] → ∀ R : ℕ → ℝ,
        dotR R w = (∑ j ∈ Finset.range N, il.values.getD j 0 * c.values.getD j 0 *
            e2022At (e2022Points i I) I ((N - 1) / I) R j) *
          (100 / ∑ j ∈ Finset.range N, il.values.getD j 0 * cmf.yBar.values.getD j 0) := by
  have hI := h.three
  have hic : (N + I - 1) / I = (N - 1) / I + 1 := by
    rw [show N + I - 1 = N - 1 + I by omega, Nat.add_div_right _ (by omega)]
  obtain ⟨x, ex, lx, dx⟩ := weightsChannel_ok il.values cmf.xBar.values (e2022Points i I) I N hI
    h.lenS h.lenX hN
  obtain ⟨y, ey, ly, dy⟩ := weightsChannel_ok il.values cmf.yBar.values (e2022Points i I) I N hI
    h.lenS h.lenY hN
  obtain ⟨z, ez, lz, dz⟩ := weightsChannel_ok il.values cmf.zBar.values (e2022Points i I) I N hI
    h.lenS h.lenZ hN
  have hsum : y.sum = ∑ j ∈ Finset.range N, il.values.getD j 0 * cmf.yBar.values.getD j 0 := by
    rw [← dotR_one, dy]
    simp only [e2022At_one, mul_one]
  refine ⟨x.map (· * (100 / y.sum)), y.map (· * (100 / y.sum)), z.map (· * (100 / y.sum)), ?_,
    by simpa using lx, by simpa using ly, by simpa using lz, ?_⟩
  · rw [weightsE2022_eq cmf il shape i I N h, hic]
    simp only [ex, ey, ez, bind, Except.bind]
  · intro c w hcw R
    simp only [List.mem_cons, Prod.mk.injEq, List.not_mem_nil, or_false] at hcw
    rcases hcw with ⟨rfl, rfl⟩ | ⟨rfl, rfl⟩ | ⟨rfl, rfl⟩
    · rw [dotR_map_mul, hsum, dx]
    · rw [dotR_map_mul, hsum, dy]
    · rw [dotR_map_mul, hsum, dz]

/-- C51 [R]: for every measurement interval `i >= 3` nm (integer part `I`, not necessarily an
integer) and all 1 nm tables of `N` samples: if `N >= 2I + 1` the function returns (no index is out of
bounds), with one weight per measured wavelength in the table, and the Y weights sum to 100 whenever
illuminant times y-bar has a non-zero sum. -/
theorem C51_normalised (cmf : CMF ℝ) (il : VSPD ℝ) (shape : SpdShape ℝ) (i : ℝ) (I N : ℕ)
    (h : E2022Input cmf il shape i I N) (hN : 2 * I + 1 ≤ N) :
    ∃ wx wy wz, weightsE2022 cmf il shape = .ok (wx, wy, wz) ∧
      wx.length = (N - 1) / I + 1 ∧ wy.length = (N - 1) / I + 1 ∧ wz.length = (N - 1) / I + 1 ∧
      ((∑ j ∈ Finset.range N, il.values.getD j 0 * cmf.yBar.values.getD j 0) ≠ 0 → wy.sum = 100) := by
  obtain ⟨wx, wy, wz, e, lx, ly, lz, hd⟩ := weightsE2022_ok cmf il shape i I N h hN
  refine ⟨wx, wy, wz, e, lx, ly, lz, fun hs => ?_⟩
  rw [← dotR_one, hd cmf.yBar wy (by simp)]
  simp only [e2022At_one, mul_one]
  field_simp

/-- C51 [R]: tables shorter than two measurement intervals (`N < 2I + 1`) make it panic. -/
theorem C51_too_short (cmf : CMF ℝ) (il : VSPD ℝ) (shape : SpdShape ℝ) (i : ℝ) (I N : ℕ)
    (h : E2022Input cmf il shape i I N) (hN : N < 2 * I + 1) :
    ∃ e, weightsE2022 cmf il shape = .error e := by
  have hI := h.three
  suffices hx : ∀ cb : List (List ℝ), cb.length = I - 1 → ∀ cc : List (List ℝ),
      ∃ e, weightsChannel il.values cmf.xBar.values cc cb I N ((N + I - 1) / I) = .error e by
    obtain ⟨e, he⟩ := hx ((List.range (I - 1)).map fun j =>
      lagrangeCoefficients (e2022Points i I j + 1) 4) (by simp) ((List.range (I - 1)).map fun j =>
      lagrangeCoefficients (e2022Points i I j) 3)
    refine ⟨e, ?_⟩
    rw [weightsE2022_eq cmf il shape i I N h]
    simp only [he, bind, Except.bind]
  intro cb hcb cc
  unfold weightsChannel
  rw [hcb]
  simp only [bind, Except.bind]
  by_cases h0 : N = 0
  · subst h0
    exact ⟨.overflow, by simp [usub]⟩
  rw [usub_ok N 1 (by omega)]
  dsimp only
  have hlt := Nat.mod_lt (N - 1) (show 0 < I by omega)
  have hle := Nat.mod_le (N - 1) I
  rw [usub_ok N ((N - 1) % I) (by omega)]
  dsimp only
  rw [usub_ok (N - (N - 1) % I) 1 (by omega)]
  dsimp only
  by_cases h1 : N ≤ I
  · refine ⟨.overflow, ?_⟩
    have : (N - 1) % I = N - 1 := Nat.mod_eq_of_lt (by omega)
    rw [this]
    unfold usub
    rw [if_neg (by omega)]
  · have hmod : (N - 1) % I = N - 1 - I := by
      rw [Nat.mod_eq_sub_mod (by omega), Nat.mod_eq_of_lt (by omega)]
    rw [hmod, usub_ok _ (I - 1) (by omega)]
    dsimp only
    have hic : (N + I - 1) / I = 2 := by
      rw [Nat.div_eq_iff (by omega)]; omega
    rw [hic]
    have hu : usub 2 1 = .ok 1 := rfl
    rw [hu]
    dsimp only
    have hu2 : usub 1 2 = .error .overflow := rfl
    rw [hu2]
    split
    · exact ⟨_, rfl⟩
    · exact ⟨_, rfl⟩

/-- C52 [R]: for every integer measurement interval `I >= 3` and 1 nm tables of `N >= 2I + 1` samples,
the weights of each channel, summed against any measured values `R`, give 100 times the 1 nm sum of
illuminant * colour-matching function * (reflectance interpolated to 1 nm as in ASTM E2022,
`Spec.e2022`), divided by the 1 nm sum of illuminant * y-bar. -/
theorem C52_integrates (cmf : CMF ℝ) (il : VSPD ℝ) (shape : SpdShape ℝ) (I N : ℕ)
    (h : E2022Input cmf il shape I I N) (hN : 2 * I + 1 ≤ N) :
    ∃ wx wy wz, weightsE2022 cmf il shape = .ok (wx, wy, wz) ∧
      ∀ c w, (c, w) ∈ [(cmf.xBar, wx), (cmf.yBar, wy), (cmf.zBar, wz)] → ∀ R : ℕ → ℝ,
        ∑ k ∈ Finset.range ((N - 1) / I + 1), w.getD k 0 * R k =
          100 * (∑ j ∈ Finset.range N, il.values.getD j 0 * c.values.getD j 0 * Spec.e2022 I N R j) /
            ∑ j ∈ Finset.range N, il.values.getD j 0 * cmf.yBar.values.getD j 0 := by
  obtain ⟨wx, wy, wz, e, lx, ly, lz, hd⟩ := weightsE2022_ok cmf il shape I I N h hN
  refine ⟨wx, wy, wz, e, fun c w hcw R => ?_⟩
  have hp : e2022Points (I:ℝ) I = fun j : ℕ => ((j:ℝ) + 1) / I := by
    funext j
    exact (C49_e2022 (I:ℝ) I 3 h.three h.ge h.lt h.fits).2 rfl j
  have hw : w.length = (N - 1) / I + 1 := by
    simp only [List.mem_cons, Prod.mk.injEq, List.not_mem_nil, or_false] at hcw
    rcases hcw with ⟨-, rfl⟩ | ⟨-, rfl⟩ | ⟨-, rfl⟩ <;> assumption
  have := hd c w hcw R
  rw [dotR_eq, hw, hp] at this
  rw [this]
  simp only [e2022At_eq I N h.three hN]
  ring

/-- a spectrum of `n` samples one nanometre apart, all holding `v` -/
def flat1 (n : ℕ) (v : ℝ) : VSPD ℝ :=
  ⟨(List.range n).map fun k : ℕ => ⟨k, v⟩, ⟨0, (n:ℝ) - 1, .uniform 1⟩⟩

/-- Not vacuous: flat tables of 43 samples, a 10.5 nm and a 10 nm interval. -/
theorem flat_input : E2022Input ⟨flat1 43 2, flat1 43 1, flat1 43 3⟩ (flat1 43 5)
    (SpdShape.new 0 42 (21 / 2)) (21 / 2) 10 43 ∧
    E2022Input ⟨flat1 43 2, flat1 43 1, flat1 43 3⟩ (flat1 43 5)
      (SpdShape.new 0 42 10) (10 : ℕ) 10 43 := by
  constructor <;> constructor <;> first | rfl | norm_num [SpdShape.new, flat1, VSPD.values]

example : ∃ wx wy wz, weightsE2022 ⟨flat1 43 2, flat1 43 1, flat1 43 3⟩ (flat1 43 5)
    (SpdShape.new 0 42 (21 / 2)) = .ok (wx, wy, wz) ∧ wy.sum = 100 ∧ wy.length = 5 := by
  obtain ⟨wx, wy, wz, e, -, l, -, h⟩ := C51_normalised _ _ _ _ _ _ flat_input.1 (by norm_num)
  refine ⟨wx, wy, wz, e, h ?_, by simpa using l⟩
  have : ∀ v : ℝ, ∀ j ∈ Finset.range 43, (flat1 43 v).values.getD j 0 = v := by
    intro v j hj
    have hj := Finset.mem_range.1 hj
    rw [List.getD_eq_getElem _ _ (by simpa [flat1, VSPD.values] using hj)]
    simp [flat1, VSPD.values]
  rw [Finset.sum_congr rfl fun j hj => by rw [this 5 j hj, this 1 j hj]]
  norm_num

/-! ## C53 -/

/-- `out` is `w` without its first `a` and last `b` weights, which are added to the first and to the
last of the weights kept -/
def Folded (a b : ℕ) (w out : List ℝ) : Prop :=
  out.length + a + b = w.length ∧ ∀ k, k < out.length → out.getD k 0 = w.getD (a + k) 0 +
    (if k = 0 then ∑ j ∈ Finset.range a, w.getD j 0 else 0) +
    (if k + 1 = out.length then ∑ j ∈ Finset.range b, w.getD (w.length - b + j) 0 else 0)

theorem Folded.sum {a b : ℕ} {w out : List ℝ} (h : Folded a b w out) (hne : 0 < out.length) :
    out.sum = w.sum := by
  obtain ⟨hl, hk⟩ := h
  rw [← dotR_one, ← dotR_one, dotR_eq, dotR_eq]
  simp only [mul_one]
  rw [Finset.sum_congr rfl fun k hk' => hk k (Finset.mem_range.1 hk'), Finset.sum_add_distrib,
    Finset.sum_add_distrib, ← hl, show out.length + a + b = a + out.length + b by omega,
    Finset.sum_range_add, Finset.sum_range_add]
  have e1 : ∑ k ∈ Finset.range out.length, (if k = 0 then ∑ j ∈ Finset.range a, w.getD j 0 else 0)
      = ∑ j ∈ Finset.range a, w.getD j 0 := by
    rw [Finset.sum_eq_single 0]
    · simp
    · intro b _ hb; simp [hb]
    · intro h0; exact absurd (Finset.mem_range.2 hne) h0
  have e2 : ∑ k ∈ Finset.range out.length, (if k + 1 = out.length then
      ∑ j ∈ Finset.range b, w.getD (a + out.length + j) 0 else 0)
      = ∑ j ∈ Finset.range b, w.getD (a + out.length + j) 0 := by
    rw [Finset.sum_eq_single (out.length - 1)]
    · rw [if_pos (by omega)]
    · intro c _ hc; rw [if_neg (by omega)]
    · intro h0; exact absurd (Finset.mem_range.2 (by omega)) h0
  rw [e1]
  simp only [show a + out.length + b - b = a + out.length by omega]
  rw [e2]
  ring

/-- repeatedly adding other elements to element `t` -/
theorem foldlM_collect (t : ℕ) (L : List ℕ) (w : List ℝ) (ht : t < w.length)
    (hL : ∀ i ∈ L, i < w.length ∧ i ≠ t) :
    L.foldlM (fun w i => do
      let v ← idx w i
      addAt w t v) w = .ok (w.set t (w.getD t 0 + (L.map fun i => w.getD i 0).sum)) := by
  induction L generalizing w with
  | nil =>
    show Except.ok w = _
    congr 1
    simp only [List.map_nil, List.sum_nil, add_zero]
    rw [List.getD_eq_getElem _ _ ht, List.set_getElem_self]
  | cons i L ih =>
    have hi := hL i (by simp)
    rw [List.foldlM_cons, idx_ok _ _ hi.1]
    simp only [bind, Except.bind]
    rw [addAt_ok _ _ ht]
    dsimp only
    have := ih (w.set t (w.getD t 0 + w[i]'hi.1)) (by simpa using ht) (fun j hj => by
      simpa using hL j (List.mem_cons_of_mem _ hj))
    simp only [bind, Except.bind] at this
    rw [this]
    congr 1
    rw [List.set_set]
    congr 1
    rw [List.getD_eq_getElem _ _ (by simpa using ht), List.getElem_set_self, List.map_cons,
      List.sum_cons, List.getD_eq_getElem _ _ hi.1, add_assoc]
    congr 2
    congr 1
    refine List.map_congr_left fun j hj => ?_
    have hj := hL j (List.mem_cons_of_mem _ hj)
    rw [List.getD_eq_getElem _ _ (by simpa using hj.1), List.getElem_set_ne hj.2.symm,
      List.getD_eq_getElem _ _ hj.1]

theorem adjustChannel_ok (w : List ℝ) (a b : ℕ) (h : a + b < w.length) :
    ∃ out, adjustChannel w a b = .ok out ∧ Folded a b w out := by
  set n := w.length with hn
  set A := w.getD a 0 + ((List.range a).map fun i => w.getD i 0).sum with hA
  set w1 := w.set a A with hw1
  have hl1 : w1.length = n := by simp [hw1, hn]
  set u := n - b - 1 with hu
  set B := w1.getD u 0 + (((List.range b).map fun i => n - i - 1).map fun i => w1.getD i 0).sum with hB
  set w2 := w1.set u B with hw2
  have e1 := foldlM_collect a (List.range a) w (by omega) (fun i hi => by
    have := List.mem_range.1 hi; omega)
  have e2 := foldlM_collect u ((List.range b).map fun i => n - i - 1) w1 (by omega) (fun i hi => by
    obtain ⟨j, hj, rfl⟩ := List.mem_map.1 hi
    have := List.mem_range.1 hj; omega)
  rw [List.foldlM_map] at e2
  refine ⟨(w2.take (n - b)).drop a, ?_, ?_, ?_⟩
  · unfold adjustChannel
    simp only [bind, Except.bind] at e1 e2 ⊢
    rw [e1, ← hA, ← hw1]
    dsimp only
    have hstep : ∀ (L : List ℕ), (∀ i ∈ L, i < b) → ∀ v : List ℝ,
        L.foldlM (fun w i => (usub w1.length i).bind fun a => (usub a 1).bind fun a =>
          (usub w1.length b).bind fun b => (usub b 1).bind fun b => (idx w a).bind fun v =>
            addAt w b v) v =
        L.foldlM (fun w i => (idx w (n - i - 1)).bind fun v => addAt w u v) v := by
      intro L hL
      induction L with
      | nil => intro v; rfl
      | cons i L ih =>
        intro v
        have hi := hL i (by simp)
        rw [List.foldlM_cons, List.foldlM_cons]
        have hx : ((usub w1.length i).bind fun a => (usub a 1).bind fun a =>
          (usub w1.length b).bind fun b => (usub b 1).bind fun b => (idx v a).bind fun x =>
            addAt v b x) = (idx v (n - i - 1)).bind fun x => addAt v u x := by
          rw [hl1, usub_ok n i (by omega), usub_ok n b (by omega)]
          simp only [Except.bind]
          rw [usub_ok (n - i) 1 (by omega), usub_ok (n - b) 1 (by omega)]
        rw [hx]
        congr 1
        funext v'
        exact ih (fun j hj => hL j (List.mem_cons_of_mem _ hj)) v'
    have := hstep (List.range b) (fun i hi => List.mem_range.1 hi) w1
    simp only [Except.bind] at this
    rw [this, e2]
    dsimp only
    rw [hl1, usub_ok n b (by omega)]
    dsimp only
    rw [if_pos (by omega)]
  · simp [hw2, hw1]; omega
  · intro k hk
    have hlen : ((w2.take (n - b)).drop a).length = n - b - a := by
      simp [hw2, hw1]; omega
    rw [hlen] at hk ⊢
    have hA' : A = w.getD a 0 + ∑ j ∈ Finset.range a, w.getD j 0 := by rw [hA, list_sum_range]
    have hget1 : ∀ j, w1.getD j 0 = if j = a then A else w.getD j 0 := by
      intro j
      by_cases hj : j = a
      · subst hj
        rw [if_pos rfl, List.getD_eq_getElem _ _ (by omega)]; simp [hw1]
      · rw [if_neg hj, hw1, List.getD_eq_getElem?_getD, List.getElem?_set_ne (Ne.symm hj),
          ← List.getD_eq_getElem?_getD]
    have hget2 : ∀ j, w2.getD j 0 = if j = u then B else w1.getD j 0 := by
      intro j
      by_cases hj : j = u
      · rw [if_pos hj, hj, List.getD_eq_getElem _ _ (by simp [hw2]; omega)]; simp [hw2]
      · rw [if_neg hj, hw2, List.getD_eq_getElem?_getD, List.getElem?_set_ne (Ne.symm hj),
          ← List.getD_eq_getElem?_getD]
    have hB' : B = w1.getD u 0 + ∑ j ∈ Finset.range b, w.getD (n - b + j) 0 := by
      rw [hB, List.map_map, list_sum_range]
      congr 1
      rw [← Finset.sum_range_reflect]
      refine Finset.sum_congr rfl fun j hj => ?_
      have hj := Finset.mem_range.1 hj
      simp only [Function.comp]
      rw [hget1, if_neg (by omega)]
      congr 1
      omega
    have hout : ((w2.take (n - b)).drop a).getD k 0 = w2.getD (a + k) 0 := by
      rw [List.getD_eq_getElem _ _ (by rw [hlen]; exact hk), List.getElem_drop, List.getElem_take,
        List.getD_eq_getElem]
    rw [hout, hget2, hB', hget1, hget1, hA']
    have c1 : a + k = u ↔ k + 1 = n - b - a := by omega
    have c2 : a + k = a ↔ k = 0 := by omega
    by_cases h1 : k + 1 = n - b - a
    · have h1' : u = a + k := (c1.2 h1).symm
      rw [if_pos (c1.2 h1), if_pos h1, h1']
      by_cases h2 : k = 0
      · rw [if_pos (c2.2 h2), if_pos h2, c2.2 h2]
      · rw [if_neg (by omega), if_neg h2]; ring
    · rw [if_neg (fun hc => h1 (c1.1 hc)), if_neg h1]
      by_cases h2 : k = 0
      · subst h2; simp
      · rw [if_neg (by omega), if_neg h2]; ring

/-- C53 [R]: `adjust_tristimulus_weighting_factors_astme308` for weights on the grid `r` of which the
measured range `t` cuts off `a` whole intervals at the start and `b` at the end: each channel keeps
its weights inside the range, the others being added to the end weights; so the totals are
unchanged, and for weights on every wavelength of `r` the number of weights is the number of measured
samples. -/
theorem C53_conserves (wx wy wz : List ℝ) (r t : SpdShape ℝ) (i : ℝ) (a b n : ℕ)
    (hi : r.interval = .uniform i) (ha : ⌊(t.start - r.start) / i⌋₊ = a)
    (hb : ⌊(r.end - t.end) / i⌋₊ = b) (hx : wx.length = n) (hy : wy.length = n)
    (hz : wz.length = n) (hab : a + b < n) (hn : n < 2 ^ 64) :
    ∃ ox oy oz, adjustWeights (wx, wy, wz) r t = .ok (ox, oy, oz) ∧
      Folded a b wx ox ∧ Folded a b wy oy ∧ Folded a b wz oz ∧
      ox.sum = wx.sum ∧ oy.sum = wy.sum ∧ oz.sum = wz.sum ∧
      (0 < i → r.end = r.start + ((n:ℝ) - 1) * i → t.start = r.start + a * i →
        t.end = r.end - b * i → t.end = t.start + ((oy.length : ℝ) - 1) * i) := by
  obtain ⟨ox, e1, f1⟩ := adjustChannel_ok wx a b (by omega)
  obtain ⟨oy, e2, f2⟩ := adjustChannel_ok wy a b (by omega)
  obtain ⟨oz, e3, f3⟩ := adjustChannel_ok wz a b (by omega)
  refine ⟨ox, oy, oz, ?_, f1, f2, f3, f1.sum (by have := f1.1; omega), f2.sum (by have := f2.1; omega),
    f3.sum (by have := f3.1; omega), ?_⟩
  · have ea : Flt.asUInt (2 ^ 64 - 1) ((t.start - r.start) / i) = a := by
      rw [flt_asUInt, ha]; exact Nat.min_eq_right (by omega)
    have eb : Flt.asUInt (2 ^ 64 - 1) ((r.end - t.end) / i) = b := by
      rw [flt_asUInt, hb]; exact Nat.min_eq_right (by omega)
    unfold adjustWeights
    simp only [hi, ea, eb, e1, e2, e3, bind, Except.bind]
  · intro _ h1 h2 h3
    have hl : (oy.length : ℝ) = n - a - b := by
      have := f2.1
      rw [hy] at this
      have : ((oy.length + a + b : ℕ) : ℝ) = n := by exact_mod_cast this
      push_cast at this
      linarith
    rw [h3, h1, h2, hl]; ring

/-- Not vacuous: weights 1..5 at 0, 10, ..., 40, measured at 10..20. -/
example : ∃ o, adjustWeights ([1, 2, 3, 4, 5], [1, 2, 3, 4, 5], [1, 2, 3, 4, 5])
    (SpdShape.new (0:ℝ) 40 10) (SpdShape.new 10 20 10) = .ok (o, o, o) ∧ o = [3, 12] := by
  obtain ⟨ox, oy, oz, e, f1, f2, f3, -⟩ := C53_conserves [1, 2, 3, 4, 5] [1, 2, 3, 4, 5]
    [1, 2, 3, 4, 5] (SpdShape.new (0:ℝ) 40 10) (SpdShape.new 10 20 10) 10 1 2 5 rfl
    (by norm_num [SpdShape.new]) (by norm_num [SpdShape.new]) rfl rfl rfl (by norm_num) (by norm_num)
  have key : ∀ o : List ℝ, Folded 1 2 [1, 2, 3, 4, 5] o → o = [3, 12] := by
    rintro o ⟨hl, hk⟩
    have hl : o.length = 2 := by simpa using hl
    match o, hl with
    | [p, q], _ =>
      have h0 := hk 0 (by simp)
      have h1 := hk 1 (by simp)
      norm_num [Finset.sum_range_succ] at h0 h1
      rw [h0, h1]
  rw [key ox f1, key oy f2, key oz f3] at e
  exact ⟨[3, 12], e, rfl⟩

end CS

import Verif.Props.WeightsShipped

/-!
# Flat reflectances in f64 (C105)
-/

namespace CS

/-- `r`, computed in f64, is the colour of a perfect grey of reflectance `v` under an illuminant whose
chromaticity is `w`: finite, luminance 100 v to within 6e-10 of it, chromaticity within 4.1e-5 in x and
1.21e-4 in y -/
structure Spec.GreyF (v : ℝ) (w : XYY ℝ) (r : XYZ (FP Fmt.b64)) : Prop where
  finite : r.x.isFinite = true ∧ r.y.isFinite = true ∧ r.z.isFinite = true
  luminance : |(r.y.val : ℝ) - 100 * v| ≤ 6e-10 * (100 * v)
  x : |(r.x.val : ℝ) / (r.x.val + r.y.val + r.z.val) - w.x| ≤ 0.000041
  y : |(r.y.val : ℝ) / (r.x.val + r.y.val + r.z.val) - w.y| ≤ 0.000121

theorem dSeries_range {e : List (ℚ × ℚ) × XYY ℝ} (he : e ∈ Spec.dSeries) :
    (0.31 ≤ e.2.x ∧ e.2.x ≤ 0.35) ∧ (0.325 ≤ e.2.y ∧ e.2.y ≤ 0.36) ∧
      ∃ l ∈ Spec.daylights, l.table = e.1 := by
  simp only [Spec.dSeries, List.mem_cons, List.not_mem_nil, or_false] at he
  rcases he with rfl | rfl | rfl | rfl
  · exact ⟨by norm_num, by norm_num, ⟨Spectra.d50, 300, 780, 5⟩, by simp [Spec.daylights], rfl⟩
  · exact ⟨by norm_num, by norm_num, ⟨Spectra.d55, 300, 780, 5⟩, by simp [Spec.daylights], rfl⟩
  · exact ⟨by norm_num, by norm_num, ⟨Spectra.d60, 300, 830, 5⟩, by simp [Spec.daylights], rfl⟩
  · exact ⟨by norm_num, by norm_num, ⟨Spectra.d65, 300, 780, 5⟩, by simp [Spec.daylights], rfl⟩

/-- a quotient moves little when numerator and denominator do -/
theorem ratio_near {a A s S t δ v : ℝ} (v0 : 0 < v) (hA0 : 0 ≤ A) (hAS : A ≤ S) (hS : 270 * v ≤ S)
    (h1 : |a - A| ≤ 7e-8 * v) (h2 : |s - S| ≤ 2.1e-7 * v) (h : |A / S - t| ≤ δ) : |a / s - t| ≤ δ + 2e-9 := by
  have S0 : 0 < S := by nlinarith
  obtain ⟨b1, b2⟩ := abs_le.1 h2
  have s0 : 0 < s := by nlinarith
  have key : |a / s - A / S| ≤ 2e-9 := by
    have e : a / s - A / S = ((a - A) - A / S * (s - S)) / s := by field_simp; ring
    have q0 : 0 ≤ A / S := by positivity
    have q1 : A / S ≤ 1 := (div_le_one S0).2 hAS
    have n1 : |A / S * (s - S)| ≤ 2.1e-7 * v := by
      rw [abs_mul, abs_of_nonneg q0]
      have := abs_nonneg (s - S)
      nlinarith
    rw [e, abs_div, abs_of_pos s0, div_le_iff₀ s0]
    have := abs_sub (a - A) (A / S * (s - S))
    nlinarith
  have := abs_add_le (a / s - A / S) (A / S - t)
  have e2 : a / s - A / S + (A / S - t) = a / s - t := by ring
  rw [e2] at this
  linarith

theorem grey_close (e : List (ℚ × ℚ) × XYY ℝ) (he : e ∈ Spec.dSeries) (v : ℝ) (v0 : 0 < v) (R : XYZ ℝ)
    (r : XYZ (FP Fmt.b64)) (hR : Spec.GreyOf v e.2 R)
    (hx : Spec.CloseTo (2e-8 * v + 1.5e-10 * |R.x|) r.x R.x)
    (hy : Spec.CloseTo (2e-8 * v + 1.5e-10 * |R.y|) r.y R.y)
    (hz : Spec.CloseTo (2e-8 * v + 1.5e-10 * |R.z|) r.z R.z) : Spec.GreyF v e.2 r := by
  obtain ⟨⟨x1, x2⟩, ⟨y1, y2⟩, -⟩ := dSeries_range he
  obtain ⟨ey, hc⟩ := hR
  obtain ⟨cx, cy⟩ := hc v0.ne'
  obtain ⟨fx, hx⟩ := hx
  obtain ⟨fy, hy⟩ := hy
  obtain ⟨fz, hz⟩ := hz
  have Y0 : 0 < R.y := by rw [ey]; positivity
  generalize hS : R.x + R.y + R.z = S at cx cy
  obtain ⟨cy1, cy2⟩ := abs_le.1 cy
  obtain ⟨cx1, cx2⟩ := abs_le.1 cx
  have qy : 0 < R.y / S := by linarith
  have S0 : 0 < S := by
    rcases lt_trichotomy S 0 with h | h | h
    · exact absurd (div_neg_of_pos_of_neg Y0 h) (not_lt.2 qy.le)
    · rw [h, _root_.div_zero] at qy; exact absurd qy (lt_irrefl _)
    · exact h
  have Sy1 : R.y ≤ 0.3602 * S := by
    rw [← div_le_iff₀ S0]; linarith
  have Sy2 : 0.3248 * S ≤ R.y := by
    rw [← le_div_iff₀ S0]; linarith
  have Sx1 : R.x ≤ 0.3502 * S := by
    rw [← div_le_iff₀ S0]; linarith
  have Sx2 : 0.3099 * S ≤ R.x := by
    rw [← le_div_iff₀ S0]; linarith
  rw [ey] at Sy1 Sy2
  have X0 : 0 ≤ R.x := by linarith
  have Z0 : 0 ≤ R.z := by linarith
  rw [abs_of_nonneg X0] at hx
  rw [abs_of_nonneg Y0.le] at hy
  rw [abs_of_nonneg Z0] at hz
  have ex : |(r.x.val : ℝ) - R.x| ≤ 7e-8 * v := by linarith
  have ey' : |(r.y.val : ℝ) - R.y| ≤ 7e-8 * v := by linarith
  have ez : |(r.z.val : ℝ) - R.z| ≤ 7e-8 * v := by linarith
  have es : |((r.x.val : ℝ) + r.y.val + r.z.val) - S| ≤ 2.1e-7 * v := by
    have e1 : ((r.x.val : ℝ) + r.y.val + r.z.val) - S =
        (((r.x.val : ℝ) - R.x) + ((r.y.val : ℝ) - R.y)) + ((r.z.val : ℝ) - R.z) := by rw [← hS]; ring
    have t1 := abs_add_le (((r.x.val : ℝ) - R.x) + ((r.y.val : ℝ) - R.y)) ((r.z.val : ℝ) - R.z)
    have t2 := abs_add_le ((r.x.val : ℝ) - R.x) ((r.y.val : ℝ) - R.y)
    rw [e1]
    linarith
  refine ⟨⟨fx, fy, fz⟩, ?_, ?_, ?_⟩
  · rw [← ey]
    refine hy.trans ?_
    rw [ey]
    linarith
  · exact (ratio_near v0 X0 (by linarith) (by linarith) ex es (abs_le.2 ⟨cx1, cx2⟩)).trans (by norm_num)
  · exact (ratio_near v0 Y0.le (by linarith) (by linarith) ey' es (abs_le.2 ⟨cy1, cy2⟩)).trans (by norm_num)

/-- the exact spectrum beside a flat one on whole wavelengths -/
def flatSpd (lo hi i : ℕ) (v : ℝ) : VSPD ℝ :=
  ⟨(List.range ((hi - lo) / i + 1)).map fun k : ℕ => ⟨((lo + k * i : ℕ) : ℝ), v⟩, SpdShape.new lo hi i⟩

theorem flat_tracks {f : Fmt} [Libm f] (hf : Std f) (sh : SpdShape (FP f)) (lo hi i : ℕ) (hi0 : 0 < i)
    (hle : lo ≤ hi) (h2 : i ≤ hi - lo) (hb : hi ≤ 2 ^ 20) (hib : i ≤ 2 ^ 20)
    (hsh : Spec.SameShape sh (SpdShape.new (lo : ℝ) hi i)) (v : FP f) (hv : v.isFinite = true) :
    ∃ s, VSPD.constant sh v = .ok s ∧ Spec.Tracks 0 s (flatSpd lo hi i v.val) := by
  obtain ⟨i', e', hi'⟩ := hsh.interval.inv
  obtain ⟨h1, h3⟩ := wavelengths_whole_fp hf sh i' lo hi i hi0 hle hb hib hsh.start.whole hsh.stop.whole e'
    hi'.whole
  have hn : 1 ≤ (hi - lo) / i := (Nat.one_le_div_iff hi0).2 h2
  refine ⟨_, by
    unfold VSPD.constant
    rw [h1]
    simp only [bind, Except.bind]
    rw [if_neg (by simp only [List.length_map, List.length_range]; omega)], ?_, hsh⟩
  unfold flatSpd
  rw [List.map_map, List.forall₂_map_left_iff, List.forall₂_map_right_iff, List.forall₂_same]
  intro k hk
  have := h3 k (by simp at hk; omega)
  exact ⟨this.fin, this.real, hv, by simp⟩

theorem flat_grid (lo hi i : ℕ) (v : ℝ) (hi0 : 0 < i) (hle : lo ≤ hi) (h6 : 5 * i ≤ hi - lo)
    (hd : i ∣ hi - lo) (hb : hi ≤ 2 ^ 20) : Spec.WholeGrid (flatSpd lo hi i v) := by
  obtain ⟨d, hd⟩ := hd
  have hq : (hi - lo) / i = d := by rw [hd]; exact Nat.mul_div_cancel_left _ hi0
  have hd5 : 5 ≤ d := by
    rw [hd, mul_comm] at h6
    exact Nat.le_of_mul_le_mul_left h6 hi0
  unfold flatSpd
  rw [hq]
  refine ⟨?_, ?_, ?_, ?_, ?_⟩
  · simp; omega
  · intro p hp
    obtain ⟨k, hk, rfl⟩ := List.mem_map.1 hp
    refine ⟨lo + k * i, ?_, rfl⟩
    have : k * i ≤ hi - lo := by
      rw [hd, mul_comm]
      exact Nat.mul_le_mul_left _ (by simp at hk; omega)
    omega
  · simp only [VSPD.wavelengths, List.map_map]
    rw [List.pairwise_map]
    refine List.pairwise_lt_range.imp fun {a b} hab => ?_
    have : a * i < b * i := Nat.mul_lt_mul_of_pos_right hab hi0
    simp only [Function.comp]
    exact_mod_cast (by omega : lo + a * i < lo + b * i)
  · rw [List.range_succ_eq_map]
    simp [SpdShape.new]
  · rw [List.range_succ]
    simp only [List.map_append, List.map_cons, List.map_nil, List.getLast?_append, List.getLast?_singleton,
      Option.some_or, Option.map_some, SpdShape.new, Option.some.injEq]
    have : lo + d * i = hi := by rw [mul_comm, ← hd]; omega
    exact_mod_cast this

section
variable [Libm Fmt.b64]

/-- C105 [F]: in f64, a flat reflectance `v` made by `constant` at whole wavelengths (at least six of them,
meeting 360..780 nm, every whole interval but 10 nm; for 5 nm on multiples of 5 or covering 360..780), measured
with `to_xyz` under any shipped daylight illuminant and the shipped CIE 1931 observer, returns the colour of a
perfect grey: finite, Y = 100 v to nine digits, and the chromaticity published for the illuminant. -/
theorem C105_grey (hp : PowiAccurate Fmt.b64) (e : List (ℚ × ℚ) × XYY ℝ) (he : e ∈ Spec.dSeries)
    (il : VSPD (FP Fmt.b64)) (cmf : CMF (FP Fmt.b64)) (hil : Spectra.vspd e.1 = .ok il)
    (hcmf : Spectra.cie1931 = .ok cmf) (sh : SpdShape (FP Fmt.b64)) (lo hi i : ℕ) (hi0 : 0 < i)
    (h6 : 5 * i ≤ hi - lo) (hd : i ∣ hi - lo) (hlo : lo ≤ 780) (hhi : 360 ≤ hi) (hb : hi ≤ 2 ^ 20)
    (h10 : i ≠ 10) (h5 : i = 5 → 5 ∣ lo ∨ lo ≤ 360 ∧ 780 ≤ hi)
    (hsh : Spec.SameShape sh (SpdShape.new (lo : ℝ) hi i)) (v : FP Fmt.b64) (hv : v.isFinite = true)
    (hv1 : 1 / 2 ^ 16 ≤ v.val) (hv2 : v.val ≤ 2 ^ 16) :
    ∃ s, VSPD.constant sh v = .ok s ∧
      ∃ N, ∀ fuel, N ≤ fuel → ∃ r, s.toXyz fuel il cmf = .ok r ∧ Spec.GreyF v.val e.2 r := by
  have hle : lo ≤ hi := by omega
  have hib : i ≤ 2 ^ 20 := by omega
  have hw := flat_grid lo hi i v.val hi0 hle h6 hd hb
  obtain ⟨s, hs, ht⟩ := flat_tracks std_b64 sh lo hi i hi0 hle (by omega) hb hib hsh v hv
  have w1 : (1 / 2 ^ 16 : ℝ) ≤ v.val := by
    have : ((1 / 2 ^ 16 : ℚ) : ℝ) ≤ v.val := by exact_mod_cast hv1
    push_cast at this; exact this
  have w2 : (v.val : ℝ) ≤ 2 ^ 16 := by exact_mod_cast hv2
  have v0 : (0:ℝ) < v.val := lt_of_lt_of_le (by positivity) w1
  have hov : max (360 : ℝ) (flatSpd lo hi i v.val).shape.start ≤ min (780 : ℝ) (flatSpd lo hi i v.val).shape.end := by
    show max (360 : ℝ) (lo : ℝ) ≤ min (780 : ℝ) (hi : ℝ)
    have a1 : (lo : ℝ) ≤ 780 := by exact_mod_cast hlo
    have a2 : (360 : ℝ) ≤ hi := by exact_mod_cast hhi
    have a3 : (lo : ℝ) ≤ hi := by exact_mod_cast hle
    exact max_le (le_min (by norm_num) a2) (le_min a1 a3)
  have hval : ∀ p ∈ (flatSpd lo hi i v.val).samples, p.v = (v.val : ℝ) := by
    intro p hp
    obtain ⟨k, hk, rfl⟩ := List.mem_map.1 hp
    rfl
  have hl : Spec.Loaded (v.val : ℝ) s (flatSpd lo hi i v.val) := by
    refine ⟨w1, w2, ⟨ht.samples.imp fun p q h => ⟨h.nm_fin, h.nm, h.v_fin, h.v.trans ?_⟩, ht.shape⟩, hw, ?_, hov⟩
    · intro p hp
      rw [hval p hp, abs_of_pos v0]
    · have := Fmt.b64.u_pos
      have : (0:ℝ) < Fmt.b64.u := by exact_mod_cast this
      positivity
  obtain ⟨-, -, l, hl1, hl2⟩ := dSeries_range he
  obtain ⟨q, hq, hq1, -, -⟩ := dSeries_mem he
  obtain ⟨IL, hIL⟩ : ∃ IL : VSPD ℝ, Spectra.vspd e.1 = .ok IL := by
    have hm : l ∈ Spec.shipped := by
      simp only [Spec.daylights, List.mem_cons, List.not_mem_nil, or_false] at hl1
      rcases hl1 with rfl | rfl | rfl | rfl <;> simp [Spec.shipped]
    rw [← hl2]
    exact ⟨_, C70_loads_real _ hm⟩
  obtain ⟨N1, R, h1⟩ := C91_shipped hp l hl1 il (by rw [hl2]; exact hil) IL (by rw [hl2]; exact hIL) cmf _ hcmf
    cie1931_ok _ s _ hl i rfl hib h10
  refine ⟨s, hs, ?_⟩
  have hspan := WholeGrid.spans hw hov
  have six := hw.six
  have hG : ∃ N, ∀ fuel, N ≤ fuel → ∃ r, (flatSpd lo hi i v.val).toXyz fuel IL
      ⟨tableSpd Spectra.xBar 360 1 471, tableSpd Spectra.yBar 360 1 471, tableSpd Spectra.zBar 360 1 471⟩ = .ok r ∧
      Spec.GreyOf v.val e.2 r := by
    by_cases hi5 : i = 5
    · refine C71_grey_five_nm e he IL _ hIL cie1931_ok _ _ ?_ (i : ℝ) rfl (by rw [Nat.floor_natCast]; exact hi5) six hval
      refine ⟨hspan.two, hspan.asc, hspan.start, hspan.stop, hspan.overlap, ?_, ?_⟩
      · show (lo : ℝ) ≤ 360 ∨ ∃ j : ℕ, (lo : ℝ) = 360 + j * 5
        by_cases hc : lo ≤ 360
        · left; exact_mod_cast hc
        · right
          obtain ⟨a, ha⟩ := (h5 hi5).resolve_right (fun h => hc h.1)
          refine ⟨a - 72, ?_⟩
          have : lo = 360 + (a - 72) * 5 := by omega
          exact_mod_cast this
      · show (780 : ℝ) ≤ hi ∨ ∃ j : ℕ, (hi : ℝ) = 360 + j * 5
        by_cases hc : 780 ≤ hi
        · left; exact_mod_cast hc
        · right
          obtain ⟨a, ha⟩ := (h5 hi5).resolve_right (fun h => hc h.2)
          obtain ⟨d, hd⟩ := hd
          subst hi5
          refine ⟨a + d - 72, ?_⟩
          have : hi = 360 + (a + d - 72) * 5 := by omega
          exact_mod_cast this
    · refine C71_grey_one_nm e he IL _ hIL cie1931_ok _ _ hspan (i : ℝ) rfl ?_ ?_
        (by rw [Nat.floor_natCast]; exact hi5) (by rw [Nat.floor_natCast]; exact h10) six hval
      · have : (0:ℝ) ≤ i := Nat.cast_nonneg i
        linarith
      · have : (i : ℝ) ≤ 2 ^ 20 := by exact_mod_cast hib
        norm_num at this ⊢
        linarith
  obtain ⟨N2, h2⟩ := hG
  refine ⟨max N1 N2, fun fuel hf => ?_⟩
  obtain ⟨a, r, b, c1, c2, c3⟩ := h1 fuel ((le_max_left _ _).trans hf)
  obtain ⟨R', a', g⟩ := h2 fuel ((le_max_right _ _).trans hf)
  rw [a] at a'
  cases Except.ok.inj a'
  refine ⟨r, b, grey_close e he _ v0 R r g ⟨c1.1, c1.2.trans ?_⟩ ⟨c2.1, c2.2.trans ?_⟩ ⟨c3.1, c3.2.trans ?_⟩⟩
  · have := abs_nonneg R.x; linarith
  · have := abs_nonneg R.y; linarith
  · have := abs_nonneg R.z; linarith

/-- C105 [F]: the same at 10 nm, on multiples of 10 (from two samples on, as the ASTM method holds the end
values). -/
theorem C105_grey_ten_nm (hp : PowiAccurate Fmt.b64) (e : List (ℚ × ℚ) × XYY ℝ) (he : e ∈ Spec.dSeries)
    (il : VSPD (FP Fmt.b64)) (cmf : CMF (FP Fmt.b64)) (hil : Spectra.vspd e.1 = .ok il)
    (hcmf : Spectra.cie1931 = .ok cmf) (sh : SpdShape (FP Fmt.b64)) (lo hi : ℕ) (h2 : 10 ≤ hi - lo)
    (hl10 : 10 ∣ lo) (hlo : lo ≤ 780) (hhi : 360 ≤ hi - hi % 10) (hb : hi ≤ 2 ^ 20)
    (hsh : Spec.SameShape sh (SpdShape.new (lo : ℝ) hi (10 : ℕ))) (v : FP Fmt.b64) (hv : v.isFinite = true)
    (hv1 : 1 / 2 ^ 16 ≤ v.val) (hv2 : v.val ≤ 2 ^ 16) :
    ∃ s, VSPD.constant sh v = .ok s ∧
      ∃ N, ∀ fuel, N ≤ fuel → ∃ r, s.toXyz fuel il cmf = .ok r ∧ Spec.GreyF v.val e.2 r := by
  have hle : lo ≤ hi := by omega
  obtain ⟨s, hs, ht⟩ := flat_tracks std_b64 sh lo hi 10 (by norm_num) hle (by omega) hb (by norm_num) hsh v hv
  have w1 : (1 / 2 ^ 16 : ℝ) ≤ v.val := by
    have : ((1 / 2 ^ 16 : ℚ) : ℝ) ≤ v.val := by exact_mod_cast hv1
    push_cast at this; exact this
  have w2 : (v.val : ℝ) ≤ 2 ^ 16 := by exact_mod_cast hv2
  have v0 : (0:ℝ) < v.val := lt_of_lt_of_le (by positivity) w1
  have hval : ∀ p ∈ (flatSpd lo hi 10 v.val).samples, p.v = (v.val : ℝ) := by
    intro p hp
    obtain ⟨k, hk, rfl⟩ := List.mem_map.1 hp
    rfl
  obtain ⟨-, -, l, hl1, hl2⟩ := dSeries_range he
  obtain ⟨IL, hIL⟩ : ∃ IL : VSPD ℝ, Spectra.vspd e.1 = .ok IL := by
    have hm : l ∈ Spec.shipped := by
      simp only [Spec.daylights, List.mem_cons, List.not_mem_nil, or_false] at hl1
      rcases hl1 with rfl | rfl | rfl | rfl <;> simp [Spec.shipped]
    rw [← hl2]
    exact ⟨_, C70_loads_real _ hm⟩
  have hten : (flatSpd lo hi 10 v.val).shape.interval = .uniform (10 : ℝ) := by
    simp [flatSpd, SpdShape.new]
  have hlen : (flatSpd lo hi 10 v.val).samples.length = (hi - lo) / 10 + 1 := by simp [flatSpd]
  obtain ⟨a, ha⟩ := hl10
  have hu : ∀ (k : ℕ) (p : Sample ℝ), (flatSpd lo hi 10 v.val).samples[k]? = some p →
      p.nm = 360 + (((a:ℤ) - 36 : ℤ) + k) * 10 := by
    intro k p hk
    unfold flatSpd at hk
    rw [List.getElem?_map, Option.map_eq_some_iff] at hk
    obtain ⟨j, hj, rfl⟩ := hk
    obtain ⟨hj1, hj2⟩ := List.getElem?_eq_some_iff.1 hj
    simp only [List.getElem_range] at hj2
    subst hj2
    rw [ha]
    push_cast
    ring
  have g1 : ((a:ℤ) - 36) ≤ 42 := by omega
  have g2 : 0 < ((a:ℤ) - 36) + (flatSpd lo hi 10 v.val).samples.length := by rw [hlen]; omega
  have g3 : 0 < (flatSpd lo hi 10 v.val).samples.length := by rw [hlen]; omega
  obtain ⟨N1, R, h1⟩ := C92_shipped hp l hl1 il (by rw [hl2]; exact hil) IL (by rw [hl2]; exact hIL) cmf _ hcmf
    cie1931_ok (v.val : ℝ) w1 w2 s (flatSpd lo hi 10 v.val)
    ⟨ht.samples.imp fun p q h => ⟨h.nm_fin, h.nm, h.v_fin, h.v.trans (by
      have := Fmt.b64.u_pos
      have : (0:ℝ) < Fmt.b64.u := by exact_mod_cast this
      positivity)⟩, ht.shape⟩ (fun p hp => by rw [hval p hp, abs_of_pos v0]) hten _ hu g1 g2 g3
  obtain ⟨N2, h2⟩ := C71_grey_ten_nm e he IL _ hIL cie1931_ok _ (v.val : ℝ) hten _ hu g1 g2 g3 hval
  refine ⟨s, hs, max N1 N2, fun fuel hf => ?_⟩
  obtain ⟨a, r, b, c1, c2, c3⟩ := h1 fuel ((le_max_left _ _).trans hf)
  obtain ⟨R', a', g⟩ := h2 fuel ((le_max_right _ _).trans hf)
  rw [a] at a'
  cases Except.ok.inj a'
  refine ⟨r, b, grey_close e he _ v0 R r g ⟨c1.1, c1.2.trans ?_⟩ ⟨c2.1, c2.2.trans ?_⟩ ⟨c3.1, c3.2.trans ?_⟩⟩
  · linarith
  · linarith
  · linarith

end

/-- Not vacuous: the perfect diffuser at 380..780 in steps of 4 nm and of 10 nm, and a grey card of 1/2 at
5 nm, under D65. -/
example : letI := idealLibm Fmt.b64
    ∃ (il : VSPD (FP Fmt.b64)) (cmf : CMF (FP Fmt.b64)) (s t g : VSPD (FP Fmt.b64)) (N : ℕ),
      Spectra.vspd Spectra.d65 = .ok il ∧ Spectra.cie1931 = .ok cmf ∧
      VSPD.constant (SpdShape.new (Flt.lit 380) (Flt.lit 780) (Flt.lit 4)) (Flt.lit 1) = .ok s ∧
      VSPD.constant (SpdShape.new (Flt.lit 380) (Flt.lit 780) (Flt.lit 10)) (Flt.lit 1) = .ok t ∧
      VSPD.constant (SpdShape.new (Flt.lit 380) (Flt.lit 780) (Flt.lit 5)) (Flt.lit 0.5) = .ok g ∧
      ∀ fuel, N ≤ fuel → ∃ r q p, s.toXyz fuel il cmf = .ok r ∧ t.toXyz fuel il cmf = .ok q ∧
        g.toXyz fuel il cmf = .ok p ∧ Spec.GreyF 1 ⟨0.31270, 0.32900, 1⟩ r ∧
        Spec.GreyF 1 ⟨0.31270, 0.32900, 1⟩ q ∧ Spec.GreyF (1 / 2) ⟨0.31270, 0.32900, 1⟩ p := by
  letI := idealLibm Fmt.b64
  have hX : (⟨Spectra.xBar, 360, 830, 1⟩ : Spec.Listing) ∈ Spec.shipped := by simp [Spec.shipped]
  have hY : (⟨Spectra.yBar, 360, 830, 1⟩ : Spec.Listing) ∈ Spec.shipped := by simp [Spec.shipped]
  have hZ : (⟨Spectra.zBar, 360, 830, 1⟩ : Spec.Listing) ∈ Spec.shipped := by simp [Spec.shipped]
  have hD : (⟨Spectra.d65, 300, 780, 5⟩ : Spec.Listing) ∈ Spec.shipped := by simp [Spec.shipped]
  have x1 := C70_loads_ieee (f := Fmt.b64) (by simp [Fmt.b64]) _ hX
  have y1 := C70_loads_ieee (f := Fmt.b64) (by simp [Fmt.b64]) _ hY
  have z1 := C70_loads_ieee (f := Fmt.b64) (by simp [Fmt.b64]) _ hZ
  have d1 := C70_loads_ieee (f := Fmt.b64) (by simp [Fmt.b64]) _ hD
  have c1 : ∃ cmf : CMF (FP Fmt.b64), Spectra.cie1931 = .ok cmf := by
    unfold Spectra.cie1931
    dsimp only at x1 y1 z1
    rw [x1, y1, z1]
    exact ⟨_, rfl⟩
  obtain ⟨cmf, c1⟩ := c1
  have hlit : ∀ n : ℕ, 0 < n → n ≤ 2 ^ 20 → ∀ q : ℚ, q = n → Spec.SameNum (Flt.lit q : FP Fmt.b64) (n : ℝ) :=
    fun n h0 hn q hq => (Whole.lit std_b64 n h0 (hn.trans (by norm_num)) q hq).sameNum
  have hsh : ∀ n : ℕ, 0 < n → n ≤ 2 ^ 20 → ∀ q : ℚ, q = n → Spec.SameShape
      (SpdShape.new (Flt.lit 380) (Flt.lit 780) (Flt.lit q) : SpdShape (FP Fmt.b64))
      (SpdShape.new ((380 : ℕ) : ℝ) ((780 : ℕ) : ℝ) n) := fun n h0 hn q hq =>
    ⟨hlit 380 (by norm_num) (by norm_num) _ (by norm_num), hlit 780 (by norm_num) (by norm_num) _ (by norm_num),
      hlit n h0 hn q hq⟩
  have hone : (Flt.lit 1 : FP Fmt.b64).isFinite = true ∧ (Flt.lit 1 : FP Fmt.b64).val = 1 := by
    have h := lit_natural (f := Fmt.b64) std_b64 1 (by norm_num) (by norm_num) 1 (by norm_num)
    rw [Nat.cast_one] at h
    exact h
  have hhalf : (Flt.lit 0.5 : FP Fmt.b64).isFinite = true ∧ (Flt.lit 0.5 : FP Fmt.b64).val = 1 / 2 := by
    have h : ((Flt.lit 0.5 : FP Fmt.b64).isFinite && decide ((Flt.lit 0.5 : FP Fmt.b64).val = 1 / 2)) = true := by krefl
    simpa using h
  obtain ⟨s, s1, N1, s2⟩ := C105_grey (ideal_powi std_b64) (Spectra.d65, ⟨0.31270, 0.32900, 1⟩) (by simp [Spec.dSeries])
    _ cmf d1 c1 _ 380 780 4 (by norm_num) (by norm_num) (by norm_num) (by norm_num) (by norm_num) (by norm_num)
    (by norm_num) (by norm_num) (hsh 4 (by norm_num) (by norm_num) 4 (by norm_num)) (Flt.lit 1) hone.1
    (by rw [hone.2]; norm_num) (by rw [hone.2]; norm_num)
  obtain ⟨t, t1, N2, t2⟩ := C105_grey_ten_nm (ideal_powi std_b64) (Spectra.d65, ⟨0.31270, 0.32900, 1⟩)
    (by simp [Spec.dSeries]) _ cmf d1 c1 _ 380 780 (by norm_num) (by norm_num) (by norm_num) (by norm_num)
    (by norm_num) (hsh 10 (by norm_num) (by norm_num) 10 (by norm_num)) (Flt.lit 1) hone.1
    (by rw [hone.2]; norm_num) (by rw [hone.2]; norm_num)
  obtain ⟨g, g1, N3, g2⟩ := C105_grey (ideal_powi std_b64) (Spectra.d65, ⟨0.31270, 0.32900, 1⟩) (by simp [Spec.dSeries])
    _ cmf d1 c1 _ 380 780 5 (by norm_num) (by norm_num) (by norm_num) (by norm_num) (by norm_num) (by norm_num)
    (by norm_num) (by norm_num) (hsh 5 (by norm_num) (by norm_num) 5 (by norm_num)) (Flt.lit 0.5) hhalf.1
    (by rw [hhalf.2]; norm_num) (by rw [hhalf.2]; norm_num)
  refine ⟨_, cmf, s, t, g, max N1 (max N2 N3), d1, c1, s1, t1, g1, fun fuel hf => ?_⟩
  obtain ⟨r, r1, r2⟩ := s2 fuel (by omega)
  obtain ⟨q, q1, q2⟩ := t2 fuel (by omega)
  obtain ⟨p, p1, p2⟩ := g2 fuel (by omega)
  rw [hone.2, Rat.cast_one] at r2 q2
  rw [hhalf.2] at p2
  refine ⟨r, q, p, r1, q1, p1, r2, q2, ?_⟩
  have e : (((1 / 2 : ℚ)) : ℝ) = 1 / 2 := by norm_num
  rwa [e] at p2

end CS

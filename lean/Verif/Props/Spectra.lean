import Verif.Lemmas.WhiteEval
import Verif.Lemmas.FPArith
import Verif.Props.ToXyz
import Verif.Props.Uplift
import Verif.Props.Space

/-!
# The shipped spectra (C70, C71)
-/

namespace CS

/-! ## C70: every shipped table can be loaded -/

/-- a table and the shape it is documented to have -/
structure Spec.Listing where
  table : List (ℚ × ℚ)
  start : ℕ
  stop : ℕ
  interval : ℕ

/-- the shipped tables: the observer at 360..830 nm every 1 nm, the illuminants at 300..780 (D60: 300..830)
every 5 nm, the 24 colour-checker patches at 380..730 every 10 nm -/
def Spec.shipped : List Spec.Listing :=
  [⟨Spectra.xBar, 360, 830, 1⟩, ⟨Spectra.yBar, 360, 830, 1⟩, ⟨Spectra.zBar, 360, 830, 1⟩,
   ⟨Spectra.d50, 300, 780, 5⟩, ⟨Spectra.d55, 300, 780, 5⟩, ⟨Spectra.d60, 300, 830, 5⟩,
   ⟨Spectra.d65, 300, 780, 5⟩] ++ Spectra.checker.map fun e => ⟨e.2, 380, 730, 10⟩

/-- the rows of a table -/
def Spec.rows {T : Type} [Flt T] (t : List (ℚ × ℚ)) : List (Sample T) :=
  t.map fun p => ⟨Flt.lit p.1, Flt.lit p.2⟩

theorem int_sub {f : Fmt} [Libm f] (a b : ℕ) (hb : 0 < b) (hab : a + b ≤ 2 ^ f.p) (hab' : a + b ≤ 2 ^ 53) :
    (Flt.lit ((a + b : ℕ) : ℚ) : FP f) - Flt.lit (a : ℚ) = Flt.lit (b : ℚ) := by
  simp only [FP.flt_lit]
  rw [FP.lit_nat (a + b) hab hab', FP.lit_nat a (by omega) (by omega), FP.lit_nat b (by omega) (by omega)]
  have hr := FP.isRep_nat (f := f) b (by omega)
  have hd : (((a + b : ℕ) : ℚ) - (a : ℚ)) = b := by push_cast; ring
  have := FP.sub_finite (a := FP.fin ((a + b : ℕ) : ℚ) (FP.isRep_nat (f := f) (a + b) hab))
    (b := FP.fin (a : ℚ) (FP.isRep_nat a (by omega))) rfl rfl
    (by rw [FP.val_fin, FP.val_fin, hd, hr.1]; exact hr.2)
  refine FP.eq_of_val this.1 rfl ?_ ?_
  · rw [this.2, FP.val_fin, FP.val_fin, hd, hr.1, FP.val_fin]
  · rw [this.2, FP.val_fin, FP.val_fin, hd, hr.1]
    exact_mod_cast hb.ne'

theorem lit_approx_self {f : Fmt} [Libm f] (b : ℕ) (hb : b ≤ 2 ^ f.p) (hb' : b ≤ 2 ^ 53) :
    Flt.approxEq (Flt.lit (b : ℚ) : FP f) (Flt.lit (b : ℚ)) = true := by
  show (FP.eqb _ _ || _ || _) = true
  simp only [FP.flt_lit, FP.lit_nat b hb hb']
  rw [FP.eqb_of_val (a := FP.fin (b:ℚ) (FP.isRep_nat b hb)) rfl rfl rfl]
  simp

/-- `vspd!` on a table at whole wavelengths, IEEE arithmetic of at least the needed precision -/
theorem vspd_ieee {f : Fmt} [Libm f] (t : List (ℚ × ℚ)) (lo i n : ℕ) (hi : 0 < i) (h2 : 2 ≤ n)
    (h : OnGrid t lo i n) (hp : lo + n * i ≤ 2 ^ f.p) (hp' : lo + n * i ≤ 2 ^ 53) :
    Spectra.vspd (T := FP f) t = .ok ⟨Spec.rows t, SpdShape.new (Flt.lit (lo : ℚ))
      (Flt.lit ((lo + (n - 1) * i : ℕ) : ℚ)) (Flt.lit (i : ℚ))⟩ := by
  have hlen := h.length
  have hrl : (Spec.rows t : List (Sample (FP f))).length = n := by simp [Spec.rows, hlen]
  have hfst : ∀ k (hk : k < t.length), (t[k]).1 = ((lo + k * i : ℕ) : ℚ) := by
    intro k hk
    have h3 : (t.map Prod.fst)[k]? = ((List.range n).map fun k : ℕ => (lo : ℚ) + k * i)[k]? := by
      rw [show t.map Prod.fst = _ from h]
    rw [List.getElem?_map, List.getElem?_eq_getElem hk, List.getElem?_map,
      List.getElem?_range (by omega)] at h3
    have h4 : (t[k]).1 = (lo : ℚ) + k * i := by simpa using h3
    rw [h4]; push_cast; rfl
  have hnm : ∀ (k : ℕ) (p : Sample (FP f)), (Spec.rows t)[k]? = some p →
      p.nm = Flt.lit ((lo + k * i : ℕ) : ℚ) ∧ k < n := by
    intro k p hp
    have hk : k < t.length := by
      have := (List.getElem?_eq_some_iff.1 hp).1; omega
    simp only [Spec.rows, List.getElem?_map, List.getElem?_eq_getElem hk, Option.map_some,
      Option.some.injEq] at hp
    rw [← hp]
    exact ⟨by dsimp only; rw [hfst k hk], by omega⟩
  have hgap : ∀ (k : ℕ) (p q : Sample (FP f)), (Spec.rows t)[k]? = some p →
      (Spec.rows t)[k + 1]? = some q → q.nm - p.nm = Flt.lit (i : ℚ) := by
    intro k p q hp hq
    obtain ⟨e1, -⟩ := hnm k p hp
    obtain ⟨e2, hk⟩ := hnm (k + 1) q hq
    have hki : (k + 1) * i ≤ n * i := Nat.mul_le_mul_right _ (by omega)
    rw [e1, e2, show lo + (k + 1) * i = lo + k * i + i by ring]
    have : (k + 1) * i = k * i + i := by ring
    exact int_sub (lo + k * i) i hi (by omega) (by omega)
  have hii : i ≤ n * i := Nat.le_mul_of_pos_left i (by omega)
  show VSPD.new (Spec.rows t) = _
  match hr : (Spec.rows t : List (Sample (FP f))), hrl with
  | [], e => simp at e; omega
  | [_], e => simp at e; omega
  | a :: b :: rest, e =>
    rw [hr] at hnm hgap
    have hl : ∃ z, (a :: b :: rest).getLast? = some z := ⟨_, List.getLast?_eq_some_getLast (by simp)⟩
    obtain ⟨z, hz⟩ := hl
    obtain ⟨iv, e1, hiv⟩ := (C38_exact (a :: b :: rest)).2 a b rest z rfl hz
    have hd := hgap 0 a b rfl rfl
    have ha := (hnm 0 a rfl).1
    have hzz : z.nm = Flt.lit ((lo + (n - 1) * i : ℕ) : ℚ) := by
      rw [List.getLast?_eq_getElem?, e] at hz
      exact (hnm (n - 1) z hz).1
    rw [e1, hzz, ha]
    rcases hiv with ⟨-, h⟩ | ⟨⟨k, p, q, hk, hp1, hq, h⟩, -⟩
    · rw [h, hd]
      simp [SpdShape.new]
    · rw [hgap k p q hp1 hq, hd, lit_approx_self i (by omega) (by omega)] at h
      cases h

theorem vspd_shipped (e : Spec.Listing) (he : e ∈ Spec.shipped) :
    OnGrid e.table e.start e.interval e.table.length ∧ 6 ≤ e.table.length ∧ 0 < e.interval ∧
      e.start + (e.table.length - 1) * e.interval = e.stop ∧
      e.start + e.table.length * e.interval ≤ 2 ^ 10 := by
  have h : ∀ e ∈ Spec.shipped, OnGrid e.table e.start e.interval e.table.length ∧ 6 ≤ e.table.length ∧
      0 < e.interval ∧ e.start + (e.table.length - 1) * e.interval = e.stop ∧
      e.start + e.table.length * e.interval ≤ 2 ^ 10 := by decide +kernel
  exact h e he

/-- C70 [F]: in any IEEE format of at least ten bits of precision, every shipped spectrum is built without
panicking, holds the listed rows in order, and reports the documented start, end and uniform interval. -/
theorem C70_loads_ieee {f : Fmt} [Libm f] (hf : 10 ≤ f.p) (e : Spec.Listing) (he : e ∈ Spec.shipped) :
    Spectra.vspd (T := FP f) e.table = .ok ⟨Spec.rows e.table,
      SpdShape.new (Flt.lit (e.start : ℚ)) (Flt.lit (e.stop : ℚ)) (Flt.lit (e.interval : ℚ))⟩ := by
  obtain ⟨h1, h2, h3, h4, h5⟩ := vspd_shipped e he
  have hp : (2:ℕ) ^ 10 ≤ 2 ^ f.p := Nat.pow_le_pow_right (by norm_num) hf
  rw [← h4]
  exact vspd_ieee e.table e.start e.interval _ h3 (by omega) h1 (by omega)
    (h5.trans (by norm_num))

/-- C70 [R]: the same in exact arithmetic. -/
theorem C70_loads_real (e : Spec.Listing) (he : e ∈ Spec.shipped) :
    Spectra.vspd (T := ℝ) e.table = .ok ⟨Spec.rows e.table, SpdShape.new e.start e.stop e.interval⟩ := by
  obtain ⟨h1, h2, h3, h4, h5⟩ := vspd_shipped e he
  have hg := vspd_grid e.table e.start e.interval _ (by exact_mod_cast h3) (by omega) h1
  have hs : (tableSpd e.table e.start e.interval e.table.length).samples = Spec.rows e.table := by
    unfold Spectra.vspd VSPD.new at hg
    cases hc : calculateShape (e.table.map fun p => (⟨Flt.lit p.1, Flt.lit p.2⟩ : Sample ℝ)) with
    | error p => rw [hc] at hg; cases hg
    | ok sh =>
      rw [hc] at hg
      simp only [bind, Except.bind, Except.ok.injEq] at hg
      rw [← hg]; rfl
  rw [hg, ← hs, ← h4]
  congr 1
  unfold tableSpd onGrid
  dsimp only
  congr 1
  push_cast
  rfl

/-- Not vacuous: 31 tables; D65 is one of them. -/
example [Libm Fmt.b64] : Spec.shipped.length = 31 ∧ ∃ s : VSPD (FP Fmt.b64), Spectra.vspd Spectra.d65 = .ok s ∧
    s.samples.length = 97 := by
  refine ⟨by decide +kernel, ⟨_, _⟩, C70_loads_ieee (by simp [Fmt.b64]) ⟨Spectra.d65, 300, 780, 5⟩ ?_, ?_⟩
  · simp [Spec.shipped]
  · simp only [Spec.rows, List.length_map]; decide +kernel

/-! ## C71: grey spectra under the shipped illuminants -/

/-- the shipped D-series illuminants, with the chromaticity constants `illuminant::xy` gives for them -/
def Spec.dSeries : List (List (ℚ × ℚ) × XYY ℝ) :=
  [(Spectra.d50, ⟨0.34570, 0.35850, 1⟩), (Spectra.d55, ⟨0.33243, 0.34744, 1⟩),
   (Spectra.d60, ⟨0.321626242047397, 0.337736995955436, 1⟩), (Spectra.d65, ⟨0.31270, 0.32900, 1⟩)]

theorem cie1931_ok : Spectra.cie1931 (T := ℝ) = .ok ⟨tableSpd Spectra.xBar 360 1 471,
    tableSpd Spectra.yBar 360 1 471, tableSpd Spectra.zBar 360 1 471⟩ := by
  obtain ⟨hx, hy, hz⟩ := bars_grid
  unfold Spectra.cie1931
  rw [vspd_grid _ 360 1 471 one_pos (by norm_num) hx, vspd_grid _ 360 1 471 one_pos (by norm_num) hy,
    vspd_grid _ 360 1 471 one_pos (by norm_num) hz]
  rfl

theorem bar_spans (t : List (ℚ × ℚ)) : Spans (tableSpd t 360 1 471) 360 780 1 := by
  unfold tableSpd
  refine onGrid_spans _ _ _ _ _ (by norm_num) (by norm_num) (by norm_num) _ _ _ (by norm_num)
    (Or.inl (by norm_num)) (Or.inl (by norm_num))

theorem d_spans (t : List (ℚ × ℚ)) (n : ℕ) (hn : 97 ≤ n) : Spans (tableSpd t 300 5 n) 360 780 1 := by
  have h : (97:ℝ) ≤ n := by exact_mod_cast hn
  have h1 : ((n - 1 : ℕ) : ℝ) = n - 1 := by rw [Nat.cast_sub (by omega)]; simp
  unfold tableSpd
  rw [h1]
  push_cast
  refine onGrid_spans _ _ _ _ _ (by norm_num) (by omega) rfl _ _ _ ?_ (Or.inl (by norm_num))
    (Or.inl (by linarith))
  rw [max_le_iff, le_min_iff, le_min_iff]
  refine ⟨⟨by norm_num, by linarith⟩, by norm_num, by linarith⟩

theorem resampled_bar (t : List (ℚ × ℚ)) (k : ℕ) (hk : k < 421) :
    resampled (tableSpd t 360 1 471) (360 + k) = (((t.map Prod.snd).getD k 0 : ℚ) : ℝ) :=
  resampled_knot t 360 1 471 one_pos (by norm_num) k (by omega) _ (by push_cast; ring)

/-- the loaded tables -/
structure Loaded (t : List (ℚ × ℚ)) (il : VSPD ℝ) (cmf : CMF ℝ) : Prop where
  tables : Tables il cmf
  il : ∀ k : ℕ, k < 421 → resampled il (360 + k) = ((dQ (t.map Prod.snd) k : ℚ) : ℝ)
  x : ∀ k : ℕ, k < 421 → resampled cmf.xBar (360 + k) = (((Spectra.xBar.map Prod.snd).getD k 0 : ℚ) : ℝ)
  y : ∀ k : ℕ, k < 421 → resampled cmf.yBar (360 + k) = (((Spectra.yBar.map Prod.snd).getD k 0 : ℚ) : ℝ)
  z : ∀ k : ℕ, k < 421 → resampled cmf.zBar (360 + k) = (((Spectra.zBar.map Prod.snd).getD k 0 : ℚ) : ℝ)

theorem loaded (t : List (ℚ × ℚ)) (hg : OnGrid t 300 5 t.length) (hn : 97 ≤ t.length) (il : VSPD ℝ)
    (cmf : CMF ℝ) (hil : Spectra.vspd t = .ok il) (hc : Spectra.cie1931 = .ok cmf) : Loaded t il cmf := by
  rw [vspd_grid t 300 5 _ (by norm_num) (by omega) hg] at hil
  rw [cie1931_ok] at hc
  cases hil
  cases hc
  exact ⟨⟨d_spans t _ hn, bar_spans _, bar_spans _, bar_spans _⟩, resampled_d t _ rfl hn,
    resampled_bar _, resampled_bar _, resampled_bar _⟩

/-- the sums `to_xyz` forms, as rationals -/
theorem white_sum (t c : List (ℚ × ℚ)) (il b : VSPD ℝ) (m n : ℕ) (hmn : (n - 1) * m < 421)
    (hil : ∀ k : ℕ, k < 421 → resampled il (360 + k) = ((dQ (t.map Prod.snd) k : ℚ) : ℝ))
    (hb : ∀ k : ℕ, k < 421 → resampled b (360 + k) = (((c.map Prod.snd).getD k 0 : ℚ) : ℝ)) :
    ∑ k ∈ Finset.range n, resampled il (360 + k * m) * resampled b (360 + k * m) = ((whiteQ t c m n : ℚ) : ℝ) := by
  unfold whiteQ
  rw [← sum_range_list]
  refine Finset.sum_congr rfl fun k hk => ?_
  have hk := Finset.mem_range.1 hk
  have hkm : k * m < 421 := lt_of_le_of_lt (Nat.mul_le_mul_right _ (by omega)) hmn
  have e1 := hil (k * m) hkm
  have e2 := hb (k * m) hkm
  push_cast at e1 e2 ⊢
  rw [e1, e2]

theorem tristimulus_grey (n : ℕ) (R S c y : ℕ → ℝ) (v : ℝ) (hR : ∀ k, k < n → R k = v) :
    Spec.tristimulus n R S c y = 100 * v * (∑ k ∈ Finset.range n, S k * c k) /
      ∑ k ∈ Finset.range n, S k * y k := by
  unfold Spec.tristimulus
  rw [Finset.sum_congr rfl fun k hk => by rw [hR k (Finset.mem_range.1 hk), mul_assoc],
    ← Finset.mul_sum]
  ring

theorem dSeries_mem {e : List (ℚ × ℚ) × XYY ℝ} (he : e ∈ Spec.dSeries) :
    ∃ q ∈ dSeriesQ, q.1 = e.1 ∧ (q.2.1 : ℝ) = e.2.x ∧ (q.2.2 : ℝ) = e.2.y := by
  simp only [Spec.dSeries, List.mem_cons, List.not_mem_nil, or_false] at he
  rcases he with rfl | rfl | rfl | rfl
  · exact ⟨_, List.mem_cons_self .., rfl, by norm_num, by norm_num⟩
  · exact ⟨(Spectra.d55, 0.33243, 0.34744), by simp [dSeriesQ], rfl, by norm_num, by norm_num⟩
  · exact ⟨(Spectra.d60, 0.321626242047397, 0.337736995955436), by simp [dSeriesQ], rfl, by norm_num,
      by norm_num⟩
  · exact ⟨(Spectra.d65, 0.31270, 0.32900), by simp [dSeriesQ], rfl, by norm_num, by norm_num⟩

/-- `r` is the colour of a perfect grey of reflectance `v` under an illuminant whose chromaticity is `w`, to
within 4e-5 in x and 1.2e-4 in y -/
def Spec.GreyOf (v : ℝ) (w : XYY ℝ) (r : XYZ ℝ) : Prop :=
  r.y = 100 * v ∧ (v ≠ 0 → |r.x / (r.x + r.y + r.z) - w.x| ≤ 0.00004 ∧
    |r.y / (r.x + r.y + r.z) - w.y| ≤ 0.00012)

theorem grey_of (e : List (ℚ × ℚ) × XYY ℝ) (he : e ∈ Spec.dSeries) (il : VSPD ℝ) (cmf : CMF ℝ)
    (hl : Loaded e.1 il cmf) (m n : ℕ) (hmn : (m, n) ∈ [(1, 421), (5, 85)]) (R : ℕ → ℝ) (v : ℝ)
    (hR : ∀ k, k < n → R k = v) :
    Spec.GreyOf v e.2 (Spec.xyz n R (fun k => resampled il (360 + k * m))
      (fun k => resampled cmf.xBar (360 + k * m)) (fun k => resampled cmf.yBar (360 + k * m))
      (fun k => resampled cmf.zBar (360 + k * m))) := by
  obtain ⟨q, hq, h1, h2, h3⟩ := dSeries_mem he
  obtain ⟨hY, hS, hx, hy⟩ := dSeries_white q hq (m, n) hmn _ _ _ rfl rfl rfl
  have hmn' : (n - 1) * m < 421 := by
    simp only [List.mem_cons, Prod.mk.injEq, List.not_mem_nil, or_false] at hmn
    rcases hmn with ⟨rfl, rfl⟩ | ⟨rfl, rfl⟩ <;> norm_num
  dsimp only at hY hS hx hy
  have sX := white_sum q.1 Spectra.xBar il cmf.xBar m n hmn' (h1 ▸ hl.il) hl.x
  have sY := white_sum q.1 Spectra.yBar il cmf.yBar m n hmn' (h1 ▸ hl.il) hl.y
  have sZ := white_sum q.1 Spectra.zBar il cmf.zBar m n hmn' (h1 ▸ hl.il) hl.z
  unfold Spec.GreyOf Spec.xyz
  simp only [tristimulus_grey n R _ _ _ v hR, sX, sY, sZ, ← h2, ← h3]
  generalize whiteQ q.1 Spectra.xBar m n = X at *
  generalize whiteQ q.1 Spectra.yBar m n = Y at *
  generalize whiteQ q.1 Spectra.zBar m n = Z at *
  generalize q.2.1 = a at *
  generalize q.2.2 = b at *
  have hY' : (0:ℝ) < Y := by exact_mod_cast hY
  have hS' : (0:ℝ) < X + Y + Z := by exact_mod_cast hS
  have hx' : |(X:ℝ) / (X + Y + Z) - a| ≤ 0.00004 := by
    have : ((|X / (X + Y + Z) - a| : ℚ) : ℝ) ≤ ((0.00004 : ℚ) : ℝ) := by exact_mod_cast abs_le.2 hx
    push_cast at this; norm_num at this ⊢; exact this
  have hy' : |(Y:ℝ) / (X + Y + Z) - b| ≤ 0.00012 := by
    have : ((|Y / (X + Y + Z) - b| : ℚ) : ℝ) ≤ ((0.00012 : ℚ) : ℝ) := by exact_mod_cast abs_le.2 hy
    push_cast at this; norm_num at this ⊢; exact this
  refine ⟨by field_simp, fun hv => ?_⟩
  have key : ∀ A : ℝ, 100 * v * A / Y / (100 * v * X / Y + 100 * v * Y / Y + 100 * v * Z / Y) = A / (X + Y + Z) := by
    intro A
    rw [← add_div, ← add_div, ← mul_add, ← mul_add]
    field_simp
  rw [key, key]
  exact ⟨hx', hy'⟩

/-- C71 [R]: a spectrum of constant reflectance `v` at an interval that is not 5 or 10 nm, under each
shipped illuminant and the CIE 1931 observer: `to_xyz` gives `Y = 100 v` and the chromaticity published for
the illuminant to within 4e-5 in x and 1.2e-4 in y. -/
theorem C71_grey_one_nm (e : List (ℚ × ℚ) × XYY ℝ) (he : e ∈ Spec.dSeries) (il : VSPD ℝ) (cmf : CMF ℝ)
    (hil : Spectra.vspd e.1 = .ok il) (hc : Spectra.cie1931 = .ok cmf) (s : VSPD ℝ) (v : ℝ)
    (hs : Spans s 360 780 1) (i : ℝ) (hi : s.shape.interval = .uniform i) (hi1 : -1 < i)
    (hi2 : i < 2 ^ 64) (h5 : ⌊i⌋₊ ≠ 5) (h10 : ⌊i⌋₊ ≠ 10) (h6 : 6 ≤ s.samples.length)
    (hv : ∀ p ∈ s.samples, p.v = v) :
    ∃ N, ∀ fuel, N ≤ fuel → ∃ r, s.toXyz fuel il cmf = .ok r ∧ Spec.GreyOf v e.2 r := by
  obtain ⟨q, hq, h1, -, -⟩ := dSeries_mem he
  obtain ⟨hg, hn⟩ := dSeries_grid q hq
  rw [h1] at hg hn
  have hl := loaded e.1 hg hn il cmf hil hc
  obtain ⟨N, h⟩ := C69_one_nm s il cmf hl.tables hs i hi hi1 hi2 h5 h10
  have := grey_of e he il cmf hl 1 421 (by simp) (fun k : ℕ => resampled s (360 + k)) v
    (fun k _ => resampled_const s v h6 hv hs.asc hs.start hs.stop _)
  simp only [Nat.cast_one, mul_one] at this
  exact ⟨N, fun fuel hf => ⟨_, h fuel hf, this⟩⟩

/-- C71 [R]: the same for an interval of 5 nm. -/
theorem C71_grey_five_nm (e : List (ℚ × ℚ) × XYY ℝ) (he : e ∈ Spec.dSeries) (il : VSPD ℝ) (cmf : CMF ℝ)
    (hil : Spectra.vspd e.1 = .ok il) (hc : Spectra.cie1931 = .ok cmf) (s : VSPD ℝ) (v : ℝ)
    (hs : Spans s 360 780 5) (i : ℝ) (hi : s.shape.interval = .uniform i) (h5 : ⌊i⌋₊ = 5)
    (h6 : 6 ≤ s.samples.length) (hv : ∀ p ∈ s.samples, p.v = v) :
    ∃ N, ∀ fuel, N ≤ fuel → ∃ r, s.toXyz fuel il cmf = .ok r ∧ Spec.GreyOf v e.2 r := by
  obtain ⟨q, hq, h1, -, -⟩ := dSeries_mem he
  obtain ⟨hg, hn⟩ := dSeries_grid q hq
  rw [h1] at hg hn
  have hl := loaded e.1 hg hn il cmf hil hc
  obtain ⟨N, h⟩ := C69_five_nm s il cmf hl.tables hs i hi h5
  have := grey_of e he il cmf hl 5 85 (by simp) (fun k : ℕ => resampled s (360 + k * 5)) v
    (fun k _ => resampled_const s v h6 hv hs.asc hs.start hs.stop _)
  simp only [Nat.cast_ofNat] at this
  exact ⟨N, fun fuel hf => ⟨_, h fuel hf, this⟩⟩

/-- C71 [R]: the same for 10 nm, at wavelengths 360 + 10k. -/
theorem C71_grey_ten_nm (e : List (ℚ × ℚ) × XYY ℝ) (he : e ∈ Spec.dSeries) (il : VSPD ℝ) (cmf : CMF ℝ)
    (hil : Spectra.vspd e.1 = .ok il) (hc : Spectra.cie1931 = .ok cmf) (s : VSPD ℝ) (v : ℝ)
    (hi : s.shape.interval = .uniform 10) (a : ℤ)
    (hu : ∀ (k : ℕ) (p : Sample ℝ), s.samples[k]? = some p → p.nm = 360 + (a + k) * 10)
    (hlo : a ≤ 42) (hhi : 0 < a + s.samples.length) (hlen : 0 < s.samples.length)
    (hv : ∀ p ∈ s.samples, p.v = v) :
    ∃ N, ∀ fuel, N ≤ fuel → ∃ r, s.toXyz fuel il cmf = .ok r ∧ Spec.GreyOf v e.2 r := by
  obtain ⟨q, hq, h1, -, -⟩ := dSeries_mem he
  obtain ⟨hg, hn⟩ := dSeries_grid q hq
  rw [h1] at hg hn
  have hl := loaded e.1 hg hn il cmf hil hc
  obtain ⟨N, h⟩ := C69_ten_nm s il cmf hl.tables hi a hu hlo hhi hlen
  have hh : Spec.endHeld s.values a = fun _ => v := by
    funext j
    unfold Spec.endHeld
    have hl : s.values.length = s.samples.length := by simp [VSPD.values]
    rw [List.getD_eq_getElem _ _ (by omega)]
    simp only [VSPD.values, List.getElem_map]
    exact hv _ (List.getElem_mem _)
  have := grey_of e he il cmf hl 1 421 (by simp) (Spec.e2022 10 421 (Spec.endHeld s.values a)) v
    (fun k _ => by rw [hh, e2022_const])
  simp only [Nat.cast_one, mul_one] at this
  exact ⟨N, fun fuel hf => ⟨_, h fuel hf, this⟩⟩

/-- C71 [R]: a spectrum with a varying interval that starts on a whole nanometre inside 360..780 has
`Y = 100 v`. -/
theorem C71_grey_varying (e : List (ℚ × ℚ) × XYY ℝ) (he : e ∈ Spec.dSeries) (il : VSPD ℝ) (cmf : CMF ℝ)
    (hil : Spectra.vspd e.1 = .ok il) (hc : Spectra.cie1931 = .ok cmf) (s : VSPD ℝ) (v : ℝ)
    (hi : s.shape.interval = .varying) (h6 : 6 ≤ s.samples.length)
    (hasc : s.wavelengths.Pairwise (· < ·))
    (hst : s.samples.head?.map Sample.nm = some s.shape.start)
    (hen : s.samples.getLast?.map Sample.nm = some s.shape.end) (j : ℕ)
    (hj : s.shape.start = 360 + j) (h780 : s.shape.end ≤ 780) (h1 : s.shape.start + 1 ≤ s.shape.end)
    (hv : ∀ p ∈ s.samples, p.v = v) :
    ∃ N, ∀ fuel, N ≤ fuel → ∃ r, s.toXyz fuel il cmf = .ok r ∧ r.y = 100 * v := by
  obtain ⟨q, hq, h1', -, -⟩ := dSeries_mem he
  obtain ⟨hg, hn⟩ := dSeries_grid q hq
  have hp := dSeries_pos q hq
  rw [h1'] at hg hn hp
  have hl := loaded e.1 hg hn il cmf hil hc
  refine C54_varying_partial s il cmf v hl.tables hi h6 hasc hst hen j hj h780 h1 hv ?_
  refine (Finset.sum_pos (fun k hk => ?_) ⟨0, by simp⟩).ne'
  have hk := Finset.mem_range.1 hk
  have hkf : ((k:ℕ):ℝ) ≤ s.shape.end - s.shape.start := by
    have : (k:ℝ) ≤ ⌊s.shape.end - s.shape.start⌋₊ := by exact_mod_cast (by omega)
    exact this.trans (Nat.floor_le (by linarith))
  have hjk : j + k < 421 := by
    have : ((j + k : ℕ) : ℝ) ≤ 420 := by push_cast; rw [hj] at hkf; linarith
    have : j + k ≤ 420 := by exact_mod_cast this
    omega
  have e1 := hl.il (j + k) hjk
  have e2 := hl.y (j + k) hjk
  have hpk := hp (j + k) (List.mem_range.2 hjk)
  push_cast at e1 e2
  rw [hj, add_assoc, e1, e2]
  exact_mod_cast hpk

/-- Not vacuous: a reflectance of 0.18 at 400, 405, ..., 700 nm under D65. -/
example : ∃ il cmf, Spectra.vspd (T := ℝ) Spectra.d65 = .ok il ∧ Spectra.cie1931 = .ok cmf ∧
    ∃ N, ∀ fuel, N ≤ fuel → ∃ r, (onGrid 400 700 5 61 fun _ => 0.18).toXyz fuel il cmf = .ok r ∧
      Spec.GreyOf 0.18 ⟨0.31270, 0.32900, 1⟩ r := by
  have hd := C70_loads_real ⟨Spectra.d65, 300, 780, 5⟩ (by simp [Spec.shipped])
  refine ⟨_, _, hd, cie1931_ok, ?_⟩
  refine C71_grey_five_nm (Spectra.d65, ⟨0.31270, 0.32900, 1⟩) (by simp [Spec.dSeries]) _ _ hd cie1931_ok
    _ _ (onGrid_spans _ _ _ _ _ (by norm_num) (by norm_num)
      (by norm_num) _ _ _ (by norm_num) (Or.inr ⟨8, by norm_num⟩) (Or.inr ⟨68, by norm_num⟩)) 5 rfl
      (by norm_num) (by rw [onGrid_length]; norm_num) fun p hp => ?_
  simp only [onGrid, List.mem_map] at hp
  obtain ⟨k, -, rfl⟩ := hp
  rfl

end CS

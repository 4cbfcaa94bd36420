import Verif.Props.ToXyzF
import Verif.Lemmas.FPAdjust

/-!
# 10 nm spectra to XYZ in floating point (C92)
-/

namespace CS

section
variable {T : Type} [Add T] [Sub T] [Mul T] [Div T] [Neg T] [Flt T]

/-- the weights, from what each step returns -/
theorem weightsE2022_run (cmf : CMF T) (il : VSPD T) (shape : SpdShape T) (i x : T) (cc cb : List (List T))
    (wx wy wz : List T) (h1 : cmf.shape.interval = .uniform i) (h2 : Flt.eqb i (Flt.lit 1.0) = true)
    (h3 : il.shape.interval.eqb cmf.shape.interval = true) (h4 : shape.interval = .uniform x)
    (h5 : lagrangeCoefficientsE2022 x 3 = .ok cc) (h6 : lagrangeCoefficientsE2022 x 4 = .ok cb)
    (h7 : Flt.asUInt (2 ^ 64 - 1) x = 10) (h8 : cmf.xBar.values.length = 421)
    (h9 : (List.zipWith (· * ·) (stepBy 10 il.values) (stepBy 10 cmf.xBar.values)).length = 43)
    (ex : weightsChannel il.values cmf.xBar.values cc cb 10 421 43 = .ok wx)
    (ey : weightsChannel il.values cmf.yBar.values cc cb 10 421 43 = .ok wy)
    (ez : weightsChannel il.values cmf.zBar.values cc cb 10 421 43 = .ok wz) :
    weightsE2022 cmf il shape = .ok (wx.map (· * (Flt.lit 100.0 / fsum wy)), wy.map (· * (Flt.lit 100.0 / fsum wy)),
      wz.map (· * (Flt.lit 100.0 / fsum wy))) := by
  unfold weightsE2022
  rw [h1] at h3 ⊢
  simp only [h2, h3, h4, h5, h6, h7, h8, h9, ex, ey, ez, Bool.not_true, Bool.false_eq_true, if_false, bind, Except.bind]

/-- the whole 10 nm path, from what each step returns -/
theorem spdToXyzWeights_run (fuel : ℕ) (s sp il : VSPD T) (cmf : CMF T) (x : T) (wx wy wz ox oy oz : List T) (A B : ℕ)
    (h1 : s.shape.interval = .uniform x) (h2 : il.shape.eqb cmf.shape = true) (h3 : s.trim cmf.shape = .ok sp)
    (h4 : weightsE2022 cmf il (SpdShape.new cmf.shape.start cmf.shape.end x) = .ok (wx, wy, wz))
    (h5 : wx.length = 43)
    (h6 : Flt.asUInt (2 ^ 64 - 1) ((sp.shape.start - cmf.shape.start) / x) = A)
    (h7 : Flt.asUInt (2 ^ 64 - 1) ((cmf.shape.start + x * Flt.ofNat 42 - sp.shape.end) / x) = B)
    (ex : adjustChannel wx A B = .ok ox) (ey : adjustChannel wy A B = .ok oy) (ez : adjustChannel wz A B = .ok oz) :
    spdToXyzWeights fuel s il cmf = .ok ⟨dotSum ox sp.values, dotSum oy sp.values, dotSum oz sp.values⟩ := by
  have hu : usub 43 1 = .ok 42 := rfl
  unfold spdToXyzWeights
  rw [h1]
  simp only [h2, h3, h4, h5, hu, Bool.not_true, Bool.false_eq_true, if_false, bind, Except.bind]
  unfold adjustWeights
  simp only [SpdShape.new, h6, h7, ex, ey, ez, bind, Except.bind]

end

/-- folding is linear -/
theorem adjust_linear (W SP : List ℝ) (c : ℝ) (A B : ℕ) (hl : W.length = 43) (hAB : A + B < 43)
    (hm : SP.length = 43 - A - B) {O : List ℝ} (h : adjustChannel (W.map (· * c)) A B = .ok O) :
    dotSum O SP = c * ∑ j ∈ Finset.range 43, W.getD j 0 * SP.getD (min (j - A) (43 - A - B - 1)) 0 := by
  obtain ⟨out, e, hF⟩ := adjustChannel_ok (W.map (· * c)) A B (by simp; omega)
  rw [h] at e
  cases e
  have hol : O.length = 43 - A - B := by
    have := hF.1
    simp only [List.length_map] at this
    omega
  rw [dotSum_getD O SP (43 - A - B) hol hm]
  have h1 := hF.dot (by omega) (fun k => SP.getD k 0)
  rw [hol, List.length_map, hl] at h1
  rw [h1, Finset.mul_sum]
  refine Finset.sum_congr rfl fun j hj => ?_
  have hj := Finset.mem_range.1 hj
  rw [List.getD_eq_getElem _ _ (by simp; omega), List.getD_eq_getElem W _ (by omega), List.getElem_map]
  ring

section
variable {f : Fmt} [Libm f]

theorem Spec.SameNum.eqb {x y : FP f} {X Y : ℝ} (hx : Spec.SameNum x X) (hy : Spec.SameNum y Y) :
    FP.eqb x y = decide (X = Y) := by
  rw [FP.eqb_finite hx.1 hy.1, ← hx.2, ← hy.2]
  simp

/-- each channel within `(1.1e7 V + 1.1e5 |exact|) κ u` of the exact one -/
structure Spec.XyzNear10 (V κ : ℝ) (r : XYZ (FP f)) (R : XYZ ℝ) : Prop where
  x : Spec.CloseTo ((1.1e7 * V + 1.1e5 * |R.x|) * κ * f.u) r.x R.x
  y : Spec.CloseTo ((1.1e7 * V + 1.1e5 * |R.y|) * κ * f.u) r.y R.y
  z : Spec.CloseTo ((1.1e7 * V + 1.1e5 * |R.z|) * κ * f.u) r.z R.z

set_option maxHeartbeats 1600000 in
/-- the 10 nm path, in floats and exactly, on tables that are already at every nanometre -/
theorem weights_sim (hf : Std f) {Vs Vi Vc κ : ℝ} (hs1 : 1 / 2 ^ 16 ≤ Vs) (hs2 : Vs ≤ 2 ^ 16)
    (hi1 : 1 / 2 ^ 16 ≤ Vi) (hi2 : Vi ≤ 2 ^ 16) (hc1 : 1 / 2 ^ 16 ≤ Vc) (hc2 : Vc ≤ 2 ^ 16)
    {s il cx cy cz : VSPD (FP f)} {S SP IL CX CY CZ : VSPD ℝ} (hs : Spec.Tracks (4 * f.u * Vs) s S)
    (hint : S.shape.interval = .uniform 10) (htrim : S.trim (SpdShape.new 360 780 1) = .ok SP)
    (hbs : ∀ p ∈ SP.samples, |p.v| ≤ 1 * Vs) (A m : ℕ) (hm0 : 0 < m) (hAm : A + m ≤ 43)
    (hlen : SP.samples.length = m) (hst : SP.shape.start = 360 + A * 10) (hen : SP.shape.end = 360 + (A + m - 1) * 10)
    (hil : Spec.Tracks (8950 * f.u * Vi) il (table IL)) (hbi : ∀ p ∈ (table IL).samples, |p.v| ≤ 89 / 64 * Vi)
    (hx : Spec.Tracks (8950 * f.u * Vc) cx (table CX)) (hbx : ∀ p ∈ (table CX).samples, |p.v| ≤ 89 / 64 * Vc)
    (hy : Spec.Tracks (8950 * f.u * Vc) cy (table CY)) (hby : ∀ p ∈ (table CY).samples, |p.v| ≤ 89 / 64 * Vc)
    (hz : Spec.Tracks (8950 * f.u * Vc) cz (table CZ)) (hbz : ∀ p ∈ (table CZ).samples, |p.v| ≤ 89 / 64 * Vc)
    (hκ0 : 0 < κ) (hκ : 421 * (Vi * Vc) ≤ κ * ∑ k ∈ Finset.range 421, resampled IL (360 + k) * resampled CY (360 + k))
    (hκ' : κ ≤ 2 ^ 20) (hκu : κ * 10 ^ 6 * f.u ≤ 1) (fuel : ℕ) :
    ∃ R, spdToXyzWeights fuel S (table IL) ⟨table CX, table CY, table CZ⟩ = .ok R ∧
      ∃ r, spdToXyzWeights fuel s il ⟨cx, cy, cz⟩ = .ok r ∧ Spec.XyzNear10 Vs κ r R := by
  obtain ⟨u0, u1, -⟩ := hf.u_bounds
  have p1 : 0 < Vs := lt_of_lt_of_le (by positivity) hs1
  have p2 : 0 < Vi := lt_of_lt_of_le (by positivity) hi1
  have p3 : 0 < Vc := lt_of_lt_of_le (by positivity) hc1
  set P := Vi * Vc with hP
  have P0 : 0 < P := by positivity
  have b1 : 1 / 2 ^ 32 ≤ P := by
    calc (1:ℝ) / 2 ^ 32 = 1 / 2 ^ 16 * (1 / 2 ^ 16) := by norm_num
      _ ≤ _ := mul_le_mul hi1 hc1 (by positivity) p2.le
  have b2 : P ≤ 2 ^ 32 := by
    calc _ ≤ (2:ℝ) ^ 16 * 2 ^ 16 := mul_le_mul hi2 hc2 p3.le (by positivity)
      _ = _ := by norm_num
  have hlenT : ∀ t : VSPD ℝ, (table t).values.length = 421 := fun t => by
    rw [onGrid_values, List.length_map, List.length_range]
  set B := 43 - A - m with hB
  clear_value B
  have hAB : A + B < 43 := by omega
  -- the interval
  have hsi := hs.shape.interval
  rw [hint] at hsi
  obtain ⟨x, hxi, hx10⟩ := hsi.inv
  have w10 : Whole x 10 := ⟨hx10.1, by have := hx10.2; exact_mod_cast this⟩
  -- coefficients
  obtain ⟨cc, ecc, hcc⟩ := coefficients_tr hf w10 3 (Or.inl rfl)
  obtain ⟨cb, ecb, hcb⟩ := coefficients_tr hf w10 4 (Or.inr rfl)
  simp only [show (3 = 4) = False by simp, if_false, add_zero] at hcc
  simp only [if_true] at hcb
  have hten : ((10 : ℕ) : ℝ) = 10 := by norm_num
  have E3 := C49_e2022 10 10 3 (by norm_num) (by norm_num) (by norm_num) (by norm_num)
  have E4 := C49_e2022 10 10 4 (by norm_num) (by norm_num) (by norm_num) (by norm_num)
  have ECC : lagrangeCoefficientsE2022 (10:ℝ) 3 =
      .ok ((List.range 9).map fun j : ℕ => lagrangeCoefficients (((j:ℝ) + 1) / 10) 3) := by
    rw [E3.1]
    congr 1
    refine List.map_congr_left fun j _ => ?_
    rw [E3.2 hten.symm j]
    simp
  have ECB : lagrangeCoefficientsE2022 (10:ℝ) 4 =
      .ok ((List.range 9).map fun j : ℕ => lagrangeCoefficients (((j:ℝ) + 1) / 10 + 1) 4) := by
    rw [E4.1]
    congr 1
    refine List.map_congr_left fun j _ => ?_
    rw [E4.2 hten.symm j]
    simp
  -- channels
  have vi := hil.values hbi
  have chan : ∀ {c : VSPD (FP f)} {C : VSPD ℝ}, Spec.Tracks (8950 * f.u * Vc) c (table C) →
      (∀ p ∈ (table C).samples, |p.v| ≤ 89 / 64 * Vc) → ∃ w W,
        weightsChannel il.values c.values cc cb 10 421 43 = .ok w ∧
        weightsChannel (table IL).values (table C).values
          ((List.range 9).map fun j : ℕ => lagrangeCoefficients (((j:ℝ) + 1) / 10) 3)
          ((List.range 9).map fun j : ℕ => lagrangeCoefficients (((j:ℝ) + 1) / 10 + 1) 4) 10 421 43 = .ok W ∧
        List.Forall₂ (fun a X => Tr (64 * P) a X 1.12 14722) w W ∧ W.length = 43 ∧
        W.sum = ∑ k ∈ Finset.range 421, resampled IL (360 + k) * resampled C (360 + k) := by
    intro c C hc hbc
    obtain ⟨w, W, e1, e2, h⟩ := channel_follows hf hi1 hi2 hc1 hc2 vi (hlenT IL) (hc.values hbc) (hlenT C) hcc
      (by simp) hcb (by simp)
    obtain ⟨W', e3, l3, d3⟩ := weightsChannel_ok (table IL).values (table C).values (fun j => ((j:ℝ) + 1) / 10) 10 421
      (by norm_num) (hlenT IL) (hlenT C) (by norm_num)
    have e3' : weightsChannel (table IL).values (table C).values
          ((List.range 9).map fun j : ℕ => lagrangeCoefficients (((j:ℝ) + 1) / 10) 3)
          ((List.range 9).map fun j : ℕ => lagrangeCoefficients (((j:ℝ) + 1) / 10 + 1) 4) 10 421 43 = .ok W' := e3
    rw [e2] at e3'
    cases e3'
    refine ⟨w, W, e1, e2, ?_, l3, ?_⟩
    · refine h.imp fun a X t => ?_
      have t' := Tr.rescale (c := 64) (by norm_num) t
      have S64 : Scale (64 * P) := ⟨by norm_num at b1 ⊢; linarith, by norm_num at b2 ⊢; linarith⟩
      exact t'.mono S64 (by norm_num) (by norm_num)
    · rw [← dotR_one, d3]
      refine Finset.sum_congr rfl fun j hj => ?_
      have hj := Finset.mem_range.1 hj
      rw [table_values_getD _ j hj, table_values_getD _ j hj, e2022At_one, mul_one]
  obtain ⟨wx, WX, ex, eX, fx, lx, -⟩ := chan hx hbx
  obtain ⟨wy, WY, ey, eY, fy, ly, sy⟩ := chan hy hby
  obtain ⟨wz, WZ, ez, eZ, fz, lz, -⟩ := chan hz hbz
  -- the scaling
  have S64 : Scale (64 * P) := ⟨by norm_num at b1 ⊢; linarith, by norm_num at b2 ⊢; linarith⟩
  obtain ⟨d1, d2, d3⟩ := fsum_tr hf S64 (by norm_num) (by norm_num) (by norm_num) (by norm_num) fy 43
    (by rw [fy.length_eq, ly]) (by norm_num)
  set D := WY.sum with hD
  have uP : 0 ≤ f.u * P := by positivity
  rw [← sy] at hκ
  have D0 : 0 < D := by
    by_contra hc
    have := mul_nonpos_of_nonneg_of_nonpos hκ0.le (not_lt.1 hc)
    linarith
  have hDle : D ≤ 7.4 * (421 * P) := by
    refine (le_abs_self _).trans (d3.trans ?_)
    push_cast; norm_num; linarith
  obtain ⟨k1, k2⟩ := inv_err hf (A := 421 * P) d1 (d2.trans (by push_cast; norm_num; linarith))
    hDle (by norm_num at b1 ⊢; linarith) (by norm_num at b2 ⊢; linarith) hκ0 hκ hκ' hκu
  set kh := (Flt.lit 100.0 / fsum wy : FP f) with hkh
  have r1 : κ * f.u ≤ 1 / 10 ^ 6 := by
    rw [le_div_iff₀ (by positivity)]; linarith
  set K : ℝ := 100 / D with hK
  have K0 : 0 < K := by positivity
  have hkK : |(kh.val : ℝ) - K| ≤ 0.108 * K := by
    refine k2.trans (mul_le_mul_of_nonneg_right ?_ K0.le)
    norm_num at r1 ⊢; linarith
  obtain ⟨hk3, hk4⟩ := abs_le.1 hkK
  have khi : (kh.val : ℝ) ≤ 1.108 * K := by norm_num at hk4 ⊢; linarith
  have klo : 0.892 * K ≤ kh.val := by norm_num at hk3 ⊢; linarith
  have hk0 : (0:ℝ) < kh.val := lt_of_lt_of_le (by positivity) klo
  have hPK : P * K ≤ 0.2376 * κ := by
    rw [hK, mul_div_assoc', div_le_iff₀ D0]
    norm_num at hκ ⊢; linarith
  have hPK2 : 0.03 ≤ P * K := by
    rw [hK, mul_div_assoc', le_div_iff₀ D0]
    norm_num at hDle ⊢; linarith
  have hPk : 64 * P * kh.val ≤ 16.85 * κ := by
    have := mul_le_mul_of_nonneg_left khi P0.le
    norm_num at this hPK ⊢; linarith
  have hPk2 : 1 ≤ 64 * P * kh.val := by
    have := mul_le_mul_of_nonneg_left klo P0.le
    norm_num at this hPK2 ⊢; linarith
  have S1 : Scale (64 * P * kh.val) := ⟨by norm_num at hPk2 ⊢; linarith, by norm_num at hPk hκ' ⊢; linarith⟩
  have S2 : Scale (64 * P * kh.val * Vs) := by
    constructor
    · have := mul_le_mul hPk2 hs1 (by positivity) (by positivity)
      norm_num at this ⊢; linarith
    · have := mul_le_mul hPk hs2 p1.le (by positivity)
      norm_num at this hκ' ⊢; linarith
  -- the samples
  have shx : Spec.SameShape cx.shape (SpdShape.new 360 780 1) := hx.shape
  obtain ⟨sp, esp, hsp⟩ := C90_trim s S SP _ hs cx.shape (SpdShape.new 360 780 1) shx htrim
  have vs := hsp.values hbs
  have lSP : SP.values.length = 43 - A - B := by
    simp only [VSPD.values, List.length_map]; omega
  -- one channel
  have fin1 : ∀ {w : List (FP f)} {W : List ℝ}, List.Forall₂ (fun a X => Tr (64 * P) a X 1.12 14722) w W → W.length = 43 →
      ∃ o O, adjustChannel (w.map (· * kh)) A B = .ok o ∧ adjustChannel (W.map (· * K)) A B = .ok O ∧
        Spec.CloseTo ((1.1e7 * Vs + 1.1e5 * |dotSum O SP.values|) * κ * f.u) (dotSum o sp.values) (dotSum O SP.values) := by
    intro w W hw hl
    obtain ⟨o, O', e1, e2, g1, g2⟩ := channel_sum hf k1 hk0 (by positivity) p1 S1 S2 hw hl A B hAB vs lSP
    obtain ⟨O, e3, -⟩ := adjustChannel_ok (W.map (· * K)) A B (by simp; omega)
    refine ⟨o, O, e1, e3, g1, ?_⟩
    have q1 := adjust_linear W SP.values _ A B hl hAB lSP e2
    have q2 := adjust_linear W SP.values _ A B hl hAB lSP e3
    set base := ∑ j ∈ Finset.range 43, W.getD j 0 * SP.values.getD (min (j - A) (43 - A - B - 1)) 0 with hbase
    have t := abs_add_le (((dotSum o sp.values).val : ℝ) - dotSum O' SP.values) (dotSum O' SP.values - dotSum O SP.values)
    rw [sub_add_sub_cancel] at t
    have t2 : |dotSum O' SP.values - dotSum O SP.values| ≤ 1.08e5 * κ * f.u * |dotSum O SP.values| := by
      rw [q1, q2, ← sub_mul, abs_mul, abs_mul, abs_of_pos K0, ← mul_assoc]
      exact mul_le_mul_of_nonneg_right k2 (abs_nonneg _)
    have t3 : 637600 * (f.u * (64 * P * kh.val * Vs)) ≤ 1.1e7 * Vs * κ * f.u := by
      have h1 := mul_le_mul_of_nonneg_left hPk (show 0 ≤ 637600 * (f.u * Vs) by positivity)
      have h2 : 0 ≤ f.u * Vs * κ := by positivity
      norm_num at h1 ⊢; linarith
    have t4 : 0 ≤ κ * f.u * |dotSum O SP.values| := by positivity
    norm_num at t2 t3 ⊢
    linarith
  obtain ⟨ox, OX, a1, A1, n1⟩ := fin1 fx lx
  obtain ⟨oy, OY, a2, A2, n2⟩ := fin1 fy ly
  obtain ⟨oz, OZ, a3, A3, n3⟩ := fin1 fz lz
  have l100 : (Flt.lit 100.0 : ℝ) = 100 := by norm_num
  have hmr : (m:ℝ) = 43 - A - B := by
    have : ((A + m + B : ℕ) : ℝ) = 43 := by
      have : A + m + B = 43 := by omega
      exact_mod_cast this
    push_cast at this; linarith
  refine ⟨⟨dotSum OX SP.values, dotSum OY SP.values, dotSum OZ SP.values⟩, ?_,
    ⟨dotSum ox sp.values, dotSum oy sp.values, dotSum oz sp.values⟩, ?_, n1, n2, n3⟩
  · have hE := weightsE2022_run ⟨table CX, table CY, table CZ⟩ (table IL) (SpdShape.new 360 780 10) 1 10 _ _ WX WY WZ
      rfl (by norm_num) (by simp [Interval.eqb, CMF.shape, onGrid, SpdShape.new]) rfl ECC ECB
      (by rw [flt_asUInt]; norm_num) (hlenT CX)
      (by rw [stepBy_eq _ (by norm_num), stepBy_eq _ (by norm_num), hlenT, hlenT]; simp) eX eY eZ
    rw [l100, fsum_eq, ← hD, ← hK] at hE
    refine spdToXyzWeights_run fuel S SP (table IL) ⟨table CX, table CY, table CZ⟩ 10 _ _ _ OX OY OZ A B hint
      ?_ htrim hE (by simpa using lx) ?_ ?_ A1 A2 A3
    · show (Flt.eqb (360:ℝ) 360 && Flt.eqb (780:ℝ) 780 && Flt.eqb (1:ℝ) 1) = true
      simp
    · rw [hst, flt_asUInt]
      show Nat.min _ ⌊((360:ℝ) + A * 10 - 360) / 10⌋₊ = A
      rw [show ((360:ℝ) + A * 10 - 360) / 10 = A by ring, Nat.floor_natCast]
      exact Nat.min_eq_right (by omega)
    · rw [hen, flt_asUInt]
      show Nat.min _ ⌊((360:ℝ) + 10 * ((42 : ℕ) : ℝ) - (360 + (A + m - 1) * 10)) / 10⌋₊ = B
      rw [show ((360:ℝ) + 10 * ((42 : ℕ) : ℝ) - (360 + (A + m - 1) * 10)) / 10 = B by rw [hmr]; push_cast; ring,
        Nat.floor_natCast]
      exact Nat.min_eq_right (by omega)
  · obtain ⟨i1, e1, n1⟩ := shx.interval.inv
    have shi : Spec.SameShape il.shape (SpdShape.new 360 780 1) := hil.shape
    obtain ⟨i2, e2, n2⟩ := shi.interval.inv
    have w360 : Whole cx.shape.start 360 := ⟨shx.start.1, by have := shx.start.2; simp only [SpdShape.new] at this; exact_mod_cast this⟩
    have one : Spec.SameNum (Flt.lit 1.0 : FP f) (1:ℝ) := by
      have := (Whole.lit hf 1 one_pos (by norm_num) (1.0 : ℚ) (by norm_num)).sameNum
      simpa using this
    have lcx : cx.values.length = 421 := by rw [(hx.values hbx).length_eq, hlenT]
    have hE := weightsE2022_run ⟨cx, cy, cz⟩ il (SpdShape.new cx.shape.start cx.shape.end x) i1 x _ _ wx wy wz
      e1 (by
        show FP.eqb _ _ = true
        rw [n1.eqb one]; norm_num) (by
        show il.shape.interval.eqb cx.shape.interval = true
        rw [e1, e2]
        show FP.eqb _ _ = true
        rw [n2.eqb n1]; simp) rfl ecc ecb (w10.asUInt (by norm_num)) lcx
      (by
        rw [List.length_zipWith, (stepBy_sim vi 10).length_eq, (stepBy_sim (hx.values hbx) 10).length_eq,
          stepBy_eq _ (by norm_num), stepBy_eq _ (by norm_num), hlenT, hlenT]; simp) ex ey ez
    have wst : Whole sp.shape.start (360 + A * 10) := by
      refine ⟨hsp.shape.start.1, ?_⟩
      have := hsp.shape.start.2
      rw [hst] at this
      exact_mod_cast this
    have wen : Whole sp.shape.end (780 - B * 10) := by
      refine ⟨hsp.shape.stop.1, ?_⟩
      have h1 := hsp.shape.stop.2
      rw [hen, hmr, show (360:ℝ) + (A + (43 - A - (B:ℕ)) - 1) * 10 = ((780 - B * 10 : ℕ) : ℝ) by
        rw [Nat.cast_sub (by omega), Nat.cast_mul]; ring] at h1
      exact_mod_cast h1
    have w42 : Whole (cx.shape.start + x * Flt.ofNat 42) 780 :=
      w360.add hf (w10.mul hf (Whole.ofNat hf 42 (by norm_num)) (by norm_num)) (by norm_num)
    refine spdToXyzWeights_run fuel s sp il ⟨cx, cy, cz⟩ x _ _ _ ox oy oz A B hxi ?_ esp hE
      (by simpa using fx.length_eq.trans lx) ?_ ?_ a1 a2 a3
    · show (FP.eqb il.shape.start cx.shape.start && FP.eqb il.shape.end cx.shape.end &&
        il.shape.interval.eqb cx.shape.interval) = true
      rw [shi.start.eqb shx.start, shi.stop.eqb shx.stop, e1, e2]
      show (_ && _ && FP.eqb _ _) = true
      rw [n2.eqb n1]; simp
    · have := Whole.asUInt_div hf (wst.sub hf w360 (by omega) (by omega)) w10 (by norm_num) (by omega) (by norm_num)
      refine this.trans ?_
      omega
    · have := Whole.asUInt_div hf (w42.sub hf wen (by omega) (by norm_num)) w10 (by norm_num) (by omega) (by norm_num)
      refine this.trans ?_
      omega

/-- C92 [F]: `to_xyz` in f32 and f64 for a 10 nm reflectance on the grid 360 + 10k (`a` may be negative).
It does not panic, every channel is finite, and it differs from the exact result (`C69_ten_nm`) by at most
`(1.1e7 V + 1.1e5 |exact|) κ u`, where `V` bounds the reflectance and `κ` says how far the mean of
illuminant times y-bar over 360, 361, ..., 780 is below the product of the bounds `Vi` and `Vc` of
illuminant and observer. The reflectance may have any number of samples. -/
theorem C92_ten_nm (hf : Std f) (hp : PowiAccurate f) {Vs Vi Vc κ : ℝ} (s il : VSPD (FP f)) (cmf : CMF (FP f))
    (S IL : VSPD ℝ) (CM : CMF ℝ) (hs1 : 1 / 2 ^ 16 ≤ Vs) (hs2 : Vs ≤ 2 ^ 16)
    (hs : Spec.Tracks (4 * f.u * Vs) s S) (hb : ∀ p ∈ S.samples, |p.v| ≤ Vs) (hil : Spec.Loaded Vi il IL)
    (hx : Spec.Loaded Vc cmf.xBar CM.xBar) (hy : Spec.Loaded Vc cmf.yBar CM.yBar)
    (hz : Spec.Loaded Vc cmf.zBar CM.zBar) (hi : S.shape.interval = .uniform 10) (a : ℤ)
    (hu : ∀ (k : ℕ) (p : Sample ℝ), S.samples[k]? = some p → p.nm = 360 + (a + k) * 10)
    (hlo : a ≤ 42) (hhi : 0 < a + S.samples.length) (hne : 0 < S.samples.length) (hκ0 : 0 < κ)
    (hκ : 421 * (Vi * Vc) ≤ κ * ∑ k ∈ Finset.range 421, resampled IL (360 + k) * resampled CM.yBar (360 + k))
    (hκ' : κ ≤ 2 ^ 20) (hκu : κ * 10 ^ 6 * f.u ≤ 1) :
    ∃ (N : ℕ) (R : XYZ ℝ), ∀ fuel, N ≤ fuel → S.toXyz fuel IL CM = .ok R ∧
      ∃ r, s.toXyz fuel il cmf = .ok r ∧ Spec.XyzNear10 Vs κ r R := by
  have ht : Tables IL CM := ⟨WholeGrid.spans hil.grid hil.overlap, WholeGrid.spans hx.grid hx.overlap,
    WholeGrid.spans hy.grid hy.overlap, WholeGrid.spans hz.grid hz.overlap⟩
  obtain ⟨N0, h0⟩ := toXyz_prefix IL CM ht
  obtain ⟨A1, a1⟩ := ht.il.align one_pos 421 floor_420 (by norm_num)
  obtain ⟨A2, a2⟩ := ht.x.align one_pos 421 floor_420 (by norm_num)
  obtain ⟨A3, a3⟩ := ht.y.align one_pos 421 floor_420 (by norm_num)
  obtain ⟨A4, a4⟩ := ht.z.align one_pos 421 floor_420 (by norm_num)
  obtain ⟨SP, A, m, hm0, hAm, htrim, hlen, hst, hen, hmem, -⟩ := trim_ten S a hu hlo hhi hne
  have sh1 : Spec.SameShape (SpdShape.new (Flt.lit 360.0) (Flt.lit 780.0) (Flt.lit 1.0) : SpdShape (FP f))
      (SpdShape.new ((360 : ℕ) : ℝ) ((780 : ℕ) : ℝ) (1 : ℕ)) :=
    shape_same hf 1 one_pos (by norm_num) _ (by norm_num) _ (by norm_num)
  have c360 : ((360 : ℕ) : ℝ) = 360 := by norm_num
  have c780 : ((780 : ℕ) : ℝ) = 780 := by norm_num
  have c1 : ((1 : ℕ) : ℝ) = 1 := by norm_num
  have hsi := hs.shape.interval
  rw [hi] at hsi
  obtain ⟨v, hv, hvi⟩ := hsi.inv
  have huF : (Flt.toUsize v : Option ℕ) = some 10 :=
    (show Spec.SameNum v ((10 : ℕ) : ℝ) by exact_mod_cast hvi).whole.usize (by norm_num)
  have huR : Flt.toUsize (10:ℝ) = some 10 := by
    rw [flt_toUsize, if_pos ⟨by norm_num, by norm_num⟩]; norm_num
  -- the same result for every fuel
  obtain ⟨N1, hN1⟩ := C69_ten_nm S IL CM ht hi a hu hlo hhi hne
  refine ⟨max (max N0 N1) (max (max A1 A2) (max A3 A4)), _, fun fuel hfuel => ⟨hN1 fuel (by omega), ?_⟩⟩
  replace a1 := a1 fuel (by omega)
  replace a2 := a2 fuel (by omega)
  replace a3 := a3 fuel (by omega)
  replace a4 := a4 fuel (by omega)
  obtain ⟨il', i1, i2⟩ := align_first hf hp hil 1 one_pos (by norm_num) sh1 (by rw [c360, c780, c1]; exact a1)
  obtain ⟨cx', x1, x2⟩ := align_first hf hp hx 1 one_pos (by norm_num) sh1 (by rw [c360, c780, c1]; exact a2)
  obtain ⟨cy', y1, y2⟩ := align_first hf hp hy 1 one_pos (by norm_num) sh1 (by rw [c360, c780, c1]; exact a3)
  obtain ⟨cz', z1, z2⟩ := align_first hf hp hz 1 one_pos (by norm_num) sh1 (by rw [c360, c780, c1]; exact a4)
  obtain ⟨R, e1, r, e2, e3⟩ := weights_sim hf hs1 hs2 hil.lo hil.hi hx.lo hx.hi hs hi htrim
    (fun p hp => (hb p (hmem p hp)).trans_eq (one_mul _).symm) A m hm0 hAm hlen hst hen
    i2 (table_bound hil.grid hil.bound) x2 (table_bound hx.grid hx.bound) y2 (table_bound hy.grid hy.bound)
    z2 (table_bound hz.grid hz.bound) hκ0 hκ hκ' hκu fuel
  have hR := hN1 fuel (by omega)
  rw [h0 fuel (by omega) S] at hR
  unfold toXyzTail at hR
  rw [hi] at hR
  dsimp only at hR
  rw [huR] at hR
  have hR' := e1.symm.trans hR
  refine ⟨r, ?_, ?_⟩
  · unfold VSPD.toXyz CMF.align VSPD.interval
    dsimp only
    rw [i1, x1, y1, z1, hv]
    simp only [bind, Except.bind]
    rw [huF]
    exact e2
  · rw [← Except.ok.inj hR']
    exact e3

end
end CS

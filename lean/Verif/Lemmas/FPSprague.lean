import Verif.Lemmas.FPScale
import Verif.Lemmas.Sprague
import Mathlib.Algebra.Order.Ring.GeomSum

/-! # Rounding errors of Sprague interpolation -/

namespace CS

/-- What the theorems about Sprague interpolation and L*a*b* assume of `powi`: for bases up to 4 and exponents
up to 5 it is within seven roundings, and some underflow. Multiplying repeatedly meets this. -/
structure PowiAccurate (f : Fmt) [Libm f] : Prop where
  near : ∀ (x : FP f) (n : ℕ), x.isFinite = true → |x.val| ≤ 4 → n ≤ 5 →
    (Flt.powi x n).isFinite = true ∧
      |((Flt.powi x n).val : ℝ) - (x.val : ℝ) ^ n| ≤ 7 * f.u * |(x.val : ℝ) ^ n| + 2 ^ 10 * f.eta

section
variable {f : Fmt}

/-- the position of `x` between two wavelengths -/
theorem position_err [Libm f] (hf : Std f) {x a b : FP f} (hx : x.isFinite = true)
    (ha : a.isFinite = true) (hb : b.isFinite = true) (hax : a.val ≤ x.val) (hxb : x.val ≤ b.val)
    (hab : a.val < b.val) (bx : |x.val| ≤ 2 ^ 20) (ba : |a.val| ≤ 2 ^ 20) (bb : |b.val| ≤ 2 ^ 20) :
    ((x - a) / (b - a)).isFinite = true ∧ 0 ≤ ((x - a) / (b - a)).val ∧ ((x - a) / (b - a)).val ≤ 1 ∧
    |((x - a) / (b - a)).val - (x.val - a.val) / (b.val - a.val)| ≤ 4 * f.u := by
  have hu0 := f.u_pos
  have hu : f.u ≤ 1 / 2 ^ 20 := hf.wide.hu
  have het : f.eta ≤ f.u / 2 ^ 124 := hf.wide.heta
  have hS : ∀ y : ℚ, |y| ≤ 2 ^ 20 → |y - a.val| ≤ 2 ^ f.emax := by
    intro y hy
    refine pow_le_emax hf.wide ?_
    have := abs_sub y a.val
    norm_num at this hy ba ⊢; linarith
  obtain ⟨s1, s2⟩ := FP.sub_finite hx ha (roundQ_lt (hS _ bx))
  obtain ⟨t1, t2⟩ := FP.sub_finite hb ha (roundQ_lt (hS _ bb))
  obtain ⟨-, s3⟩ := FP.sub_err hx ha (hS _ bx)
  obtain ⟨-, t3⟩ := FP.sub_err hb ha (hS _ bb)
  have hs0 : 0 ≤ (x - a).val := by
    rw [s2]
    have := roundQ_mono f (show (0:ℚ) ≤ x.val - a.val by linarith)
    rwa [(FP.isRep_zero f).1] at this
  have hst : (x - a).val ≤ (b - a).val := by
    rw [s2, t2]; exact roundQ_mono f (by linarith)
  have hL : 0 < b.val - a.val := by linarith
  set s := (x - a).val with hs
  set t := (b - a).val with ht
  set L := b.val - a.val with hLd
  set d := x.val - a.val with hd
  have hd0 : 0 ≤ d := by linarith
  have hdL : d ≤ L := by linarith
  rw [abs_of_pos hL] at t3
  rw [abs_of_nonneg hd0] at s3
  have htl : L * (1 - f.u) ≤ t := by have := (abs_le.1 t3).1; linarith
  have ht0 : 0 < t := lt_of_lt_of_le (mul_pos hL (by norm_num at hu; linarith)) htl
  have hq1 : s / t ≤ 1 := by rw [div_le_one ht0]; exact hst
  have hq0 : 0 ≤ s / t := div_nonneg hs0 ht0.le
  have hqa : |s / t| ≤ 1 := by rw [abs_of_nonneg hq0]; exact hq1
  have hr := pow_le_emax hf.wide (hqa.trans (by norm_num))
  obtain ⟨q1, q2⟩ := FP.div_finite' s1 t1 ht0.ne' (roundQ_lt hr)
  obtain ⟨-, q3⟩ := FP.div_err s1 t1 ht0.ne' hr
  refine ⟨q1, ?_, ?_, ?_⟩
  · rw [q2]
    have := roundQ_mono f hq0
    rwa [(FP.isRep_zero f).1] at this
  · rw [q2]
    have := roundQ_mono f hq1
    rwa [(FP.isRep_one f).1] at this
  · have e1 : |s / t - d / L| ≤ 5 / 2 * f.u := by
      have e : s / t - d / L = ((s - d) * L - d * (t - L)) / (t * L) := by
        field_simp; ring
      rw [e, abs_div, abs_of_pos (mul_pos ht0 hL), div_le_iff₀ (mul_pos ht0 hL)]
      have a1 : |(s - d) * L| ≤ d * f.u * L := by
        rw [abs_mul, abs_of_pos hL]; exact mul_le_mul_of_nonneg_right s3 hL.le
      have a2 : |d * (t - L)| ≤ d * (L * f.u) := by
        rw [abs_mul, abs_of_nonneg hd0]; exact mul_le_mul_of_nonneg_left t3 hd0
      have a3 := abs_sub ((s - d) * L) (d * (t - L))
      have a4 : d * f.u * L ≤ L * f.u * L :=
        mul_le_mul_of_nonneg_right (mul_le_mul_of_nonneg_right hdL hu0.le) hL.le
      have a5 : 2 * L ≤ 5 / 2 * t := by
        have : f.u * L ≤ 1 / 2 ^ 20 * L := mul_le_mul_of_nonneg_right hu hL.le
        norm_num at this; linarith
      have a6 := mul_le_mul_of_nonneg_right a5 (mul_pos hu0 hL).le
      linarith
    have e2 : |s / t| * f.u ≤ 1 * f.u := mul_le_mul_of_nonneg_right hqa hu0.le
    have t4 := abs_add_le (((x - a) / (b - a)).val - s / t) (s / t - d / L)
    rw [sub_add_sub_cancel] at t4
    have e3 : f.u / 2 ^ 124 ≤ f.u / 2 := by
      apply div_le_div_of_nonneg_left hu0.le (by norm_num) (by norm_num)
    linarith

/-- powers of the position -/
theorem powi_err [Libm f] (hf : Std f) (hp : PowiAccurate f) {d : FP f} {D : ℝ} (hd : d.isFinite = true)
    (h0 : 0 ≤ d.val) (h1 : d.val ≤ 1) (D0 : 0 ≤ D) (D1 : D ≤ 1) (he : |(d.val : ℝ) - D| ≤ 4 * f.u)
    (n : ℕ) (hn : n ≤ 5) :
    (Flt.powi d n).isFinite = true ∧ |D ^ n| ≤ 1 ∧
    |((Flt.powi d n).val : ℝ) - D ^ n| ≤ (8 + 4 * n) * f.u := by
  have h0r : (0:ℝ) ≤ d.val := by exact_mod_cast h0
  have h1r : (d.val : ℝ) ≤ 1 := by exact_mod_cast h1
  obtain ⟨a, b'⟩ := hp.near d n hd (by rw [abs_of_nonneg h0]; linarith) hn
  have b : |((Flt.powi d n).val : ℝ) - (d.val : ℝ) ^ n| ≤ 8 * f.u := by
    refine b'.trans ?_
    have p1 : |(d.val : ℝ) ^ n| ≤ 1 := by
      rw [abs_of_nonneg (by positivity)]; exact pow_le_one₀ h0r h1r
    have u0 : (0:ℝ) < f.u := by exact_mod_cast f.u_pos
    have u2 : (f.eta : ℝ) ≤ f.u / 2 ^ 124 := by qcast hf.wide.heta
    have e1 : 7 * (f.u : ℝ) * |(d.val : ℝ) ^ n| ≤ 7 * f.u * 1 := mul_le_mul_of_nonneg_left p1 (by linarith)
    have e2 : 2 ^ 10 * (f.eta : ℝ) ≤ 2 ^ 10 * (f.u / 2 ^ 124) := mul_le_mul_of_nonneg_left u2 (by positivity)
    have e3 : 2 ^ 10 * ((f.u : ℝ) / 2 ^ 124) ≤ f.u := by
      rw [mul_div_assoc', div_le_iff₀ (by positivity), mul_comm]
      exact mul_le_mul_of_nonneg_left (by norm_num) u0.le
    linarith
  refine ⟨a, ?_, ?_⟩
  · rw [abs_of_nonneg (by positivity)]; exact pow_le_one₀ D0 D1
  · have c : |(d.val : ℝ) ^ n - D ^ n| ≤ 4 * f.u * n := by
      refine (abs_pow_sub_pow_le _ _ _).trans ?_
      have m : max |(d.val : ℝ)| |D| ≤ 1 := by
        rw [abs_of_nonneg h0r, abs_of_nonneg D0]; exact max_le h1r D1
      have m2 : max |(d.val : ℝ)| |D| ^ (n - 1) ≤ 1 :=
        pow_le_one₀ (le_max_of_le_left (abs_nonneg _)) m
      calc |(d.val : ℝ) - D| * n * max |(d.val : ℝ)| |D| ^ (n - 1) ≤ |(d.val : ℝ) - D| * n * 1 :=
            mul_le_mul_of_nonneg_left m2 (by positivity)
        _ ≤ 4 * f.u * n := by
            rw [mul_one]; exact mul_le_mul_of_nonneg_right he (by positivity)
    have t := abs_add_le (((Flt.powi d n).val : ℝ) - (d.val : ℝ) ^ n) ((d.val : ℝ) ^ n - D ^ n)
    rw [sub_add_sub_cancel] at t
    linarith

/-! ### Sums of products with exact coefficients -/

/-- growth of the error along a sum with the given coefficients -/
noncomputable def dotK : List ℝ → ℝ → ℝ → ℝ
  | [], _, k => k
  | c :: cs, M, k => dotK cs (M + |c|) (rnd (k + rnd 0 |c|) (M + |c|))

theorem rnd_ge {E M : ℝ} (hE : 0 ≤ E) (hM : 0 ≤ M) : E ≤ rnd E M := by
  unfold rnd
  have : 0 ≤ E * (1 / 10 ^ 7) := by positivity
  norm_num at this ⊢; linarith

theorem dotK_ge : ∀ (cs : List ℝ) (M k : ℝ), 0 ≤ M → 0 ≤ k → k ≤ dotK cs M k
  | [], _, _, _, _ => le_rfl
  | c :: cs, M, k, hM, hk => by
    have h1 := rnd_ge (E := 0) le_rfl (abs_nonneg c)
    have h2 := rnd_ge (E := k + rnd 0 |c|) (M := M + |c|) (by linarith) (by positivity)
    exact (by linarith : k ≤ _).trans (dotK_ge cs _ _ (by positivity) (by linarith))

theorem abs_sum_nonneg : ∀ cs : List ℝ, 0 ≤ (cs.map abs).sum
  | [] => by simp
  | c :: cs => by
    have := abs_sum_nonneg cs
    simp only [List.map_cons, List.sum_cons]; positivity

theorem dot_tr (hf : Std f) {V : ℝ} (hV : Scale V) : ∀ (cs : List (FP f × ℝ)) (vs : List (FP f))
    (acc : FP f) (A M k : ℝ), Tr V acc A M k → 0 ≤ M → 0 ≤ k →
    (∀ c ∈ cs, c.1.isFinite = true ∧ (c.1.val : ℝ) = c.2) →
    (∀ v ∈ vs, v.isFinite = true ∧ |(v.val : ℝ)| ≤ V) →
    M + ((cs.map Prod.snd).map abs).sum ≤ 10 ^ 6 → dotK (cs.map Prod.snd) M k ≤ 10 ^ 6 →
    Tr V ((List.zipWith (· * ·) (cs.map Prod.fst) vs).foldl (· + ·) acc)
      ((List.zipWith (· * ·) (cs.map Prod.snd) (vs.map fun v => (v.val : ℝ))).foldl (· + ·) A)
      (M + ((cs.map Prod.snd).map abs).sum) (dotK (cs.map Prod.snd) M k)
  | [], vs, acc, A, M, k, h, _, _, _, _, _, _ => by simpa [dotK] using h
  | c :: cs, [], acc, A, M, k, h, hM, hk, _, _, _, _ => by
    simp only [List.map_nil, List.zipWith_nil_right, List.foldl_nil]
    exact h.mono hV (by linarith [abs_sum_nonneg ((c :: cs).map Prod.snd)]) (dotK_ge _ _ _ hM hk)
  | c :: cs, v :: vs, acc, A, M, k, h, hM, hk, hc, hv, hS, hK => by
    obtain ⟨c1, c2⟩ := hc c (by simp)
    obtain ⟨v1, v2⟩ := hv v (by simp)
    simp only [List.map_cons, List.sum_cons, dotK] at hS hK
    have s0 := abs_sum_nonneg (cs.map Prod.snd)
    have k1 := rnd_ge (E := 0) le_rfl (abs_nonneg c.2)
    have k2 := rnd_ge (E := k + rnd 0 |c.2|) (M := M + |c.2|) (by linarith) (by positivity)
    have k3 := dotK_ge (cs.map Prod.snd) (M + |c.2|) (rnd (k + rnd 0 |c.2|) (M + |c.2|))
      (by positivity) (by linarith)
    have hm : Tr V (c.1 * v) (c.2 * v.val) |c.2| (rnd 0 |c.2|) :=
      Tr.mulc hf hV c1 c2 (Tr.exact (M := 1) v1 (by linarith)) (B := |c.2|) le_rfl le_rfl (by linarith)
        (by linarith [abs_nonneg c.2]) (by norm_num) (by rw [mul_zero])
    have ha : Tr V (acc + c.1 * v) (A + c.2 * v.val) (M + |c.2|) (rnd (k + rnd 0 |c.2|) (M + |c.2|)) :=
      h.add hf hV hm hk k1 le_rfl (by linarith) (by linarith) le_rfl
    have := dot_tr hf hV cs vs _ _ _ _ ha (by positivity) (by linarith)
      (fun c' h' => hc c' (by simp [h'])) (fun v' h' => hv v' (by simp [h'])) (by linarith) hK
    simp only [List.map_cons, List.sum_cons, dotK, List.zipWith_cons_cons, List.foldl_cons]
    rw [← add_assoc]
    exact this

/-! ### The polynomial -/

theorem lit_fin [Libm f] (hf : Std f) (n : ℕ) (q : ℚ) (h0 : 0 < n := by norm_num)
    (hn : n ≤ 2 ^ 24 := by norm_num) (hq : q = n := by norm_num) :
    (Flt.lit q : FP f).isFinite = true := (lit_natural hf n h0 hn q hq).1

theorem lit_val [Libm f] (hf : Std f) (n : ℕ) (q : ℚ) (h0 : 0 < n := by norm_num)
    (hn : n ≤ 2 ^ 24 := by norm_num) (hq : q = n := by norm_num) :
    ((Flt.lit q : FP f).val : ℝ) = n := by
  have := (lit_natural hf n h0 hn q hq).2
  show ((FP.lit q : FP f).val : ℝ) = n
  rw [this]; simp

theorem litN_fin [Libm f] (hf : Std f) (n : ℕ) (q : ℚ) (h0 : 0 < n := by norm_num)
    (hn : n ≤ 2 ^ 24 := by norm_num) (hq : q = n := by norm_num) :
    (-Flt.lit q : FP f).isFinite = true := (FP.neg_finite (lit_fin hf n q h0 hn hq)).1

theorem litN_val [Libm f] (hf : Std f) (n : ℕ) (q : ℚ) (h0 : 0 < n := by norm_num)
    (hn : n ≤ 2 ^ 24 := by norm_num) (hq : q = n := by norm_num) :
    ((-Flt.lit q : FP f).val : ℝ) = -n := by
  rw [(FP.neg_finite (lit_fin hf n q h0 hn hq)).2, Rat.cast_neg, lit_val hf n q h0 hn hq]

/-- away from the ends: six samples -/
theorem poly_inner [Libm f] (hf : Std f) (hp : PowiAccurate f) {V : ℝ} (hV : Scale V)
    {m2 m1 z p1 p2 p3 d : FP f} {M2 M1 Z P1 P2 P3 D : ℝ}
    (hm2 : Tr V m2 M2 (1) (0))
    (hm1 : Tr V m1 M1 (1) (0))
    (hz : Tr V z Z (1) (0))
    (hp1 : Tr V p1 P1 (1) (0))
    (hp2 : Tr V p2 P2 (1) (0))
    (hp3 : Tr V p3 P3 (1) (0))
    (hd : d.isFinite = true) (h0 : 0 ≤ d.val) (h1 : d.val ≤ 1) (D0 : 0 ≤ D) (D1 : D ≤ 1)
    (he : |(d.val : ℝ) - D| ≤ 4 * f.u) :
    Tr V (spraguePoly (spragueA m2 m1 z p1 p2 p3) d) (spraguePoly (spragueA M2 M1 Z P1 P2 P3) D) 38 1150 := by
  have pw := powi_err hf hp hd h0 h1 D0 D1 he
  have t10 := Tr.mulc hf hV (B := 2) (P := 2) (K := 201/100) (lit_fin hf 2 2.0) (lit_val hf 2 2.0) hm2 (by norm_num)
  have t11 := Tr.mulc hf hV (B := 16) (P := 16) (K := 1601/100) (lit_fin hf 16 16.0) (lit_val hf 16 16.0) hm1 (by norm_num)
  have s11 := t10.sub hf hV t11 (P := 18) (K := 3603/100)
  have t12 := Tr.mulc hf hV (B := 16) (P := 16) (K := 1601/100) (lit_fin hf 16 16.0) (lit_val hf 16 16.0) hp1 (by norm_num)
  have s12 := s11.add hf hV t12 (P := 34) (K := 1721/20)
  have t13 := Tr.mulc hf hV (B := 2) (P := 2) (K := 201/100) (lit_fin hf 2 2.0) (lit_val hf 2 2.0) hp2 (by norm_num)
  have s13 := s12.sub hf hV t13 (P := 36) (K := 12407/100)
  have a1 := Tr.divc hf hV (P := 3/2) (K := 667/100) (lit_fin hf 24 24.0) (lit_val hf 24 24.0) (by norm_num) s13
  have t20 := hm2.neg
  have t21 := Tr.mulc hf hV (B := 16) (P := 16) (K := 1601/100) (lit_fin hf 16 16.0) (lit_val hf 16 16.0) hm1 (by norm_num)
  have s21 := t20.add hf hV t21 (P := 17) (K := 1651/50)
  have t22 := Tr.mulc hf hV (B := 30) (P := 30) (K := 3001/100) (lit_fin hf 30 30.0) (lit_val hf 30 30.0) hz (by norm_num)
  have s22 := s21.sub hf hV t22 (P := 47) (K := 2751/25)
  have t23 := Tr.mulc hf hV (B := 16) (P := 16) (K := 1601/100) (lit_fin hf 16 16.0) (lit_val hf 16 16.0) hp1 (by norm_num)
  have s23 := s22.add hf hV t23 (P := 63) (K := 9453/50)
  have t24 := hp2
  have s24 := s23.sub hf hV t24 (P := 64) (K := 25307/100)
  have a2 := Tr.divc hf hV (P := 267/100) (K := 661/50) (lit_fin hf 24 24.0) (lit_val hf 24 24.0) (by norm_num) s24
  have t30 := Tr.mulc hf hV (B := 9) (P := 9) (K := 901/100) (litN_fin hf 9 9.0) (litN_val hf 9 9.0) hm2 (by norm_num)
  have t31 := Tr.mulc hf hV (B := 39) (P := 39) (K := 3901/100) (lit_fin hf 39 39.0) (lit_val hf 39 39.0) hm1 (by norm_num)
  have s31 := t30.add hf hV t31 (P := 48) (K := 9603/100)
  have t32 := Tr.mulc hf hV (B := 70) (P := 70) (K := 7001/100) (lit_fin hf 70 70.0) (lit_val hf 70 70.0) hz (by norm_num)
  have s32 := s31.sub hf hV t32 (P := 118) (K := 5681/20)
  have t33 := Tr.mulc hf hV (B := 66) (P := 66) (K := 6601/100) (lit_fin hf 66 66.0) (lit_val hf 66 66.0) hp1 (by norm_num)
  have s33 := s32.add hf hV t33 (P := 184) (K := 53407/100)
  have t34 := Tr.mulc hf hV (B := 33) (P := 33) (K := 3301/100) (lit_fin hf 33 33.0) (lit_val hf 33 33.0) hp2 (by norm_num)
  have s34 := s33.sub hf hV t34 (P := 217) (K := 78409/100)
  have t35 := Tr.mulc hf hV (B := 7) (P := 7) (K := 701/100) (lit_fin hf 7 7.0) (lit_val hf 7 7.0) hp3 (by norm_num)
  have s35 := s34.add hf hV t35 (P := 224) (K := 101511/100)
  have a3 := Tr.divc hf hV (P := 467/50) (K := 1291/25) (lit_fin hf 24 24.0) (lit_val hf 24 24.0) (by norm_num) s35
  have t40 := Tr.mulc hf hV (B := 13) (P := 13) (K := 1301/100) (lit_fin hf 13 13.0) (lit_val hf 13 13.0) hm2 (by norm_num)
  have t41 := Tr.mulc hf hV (B := 64) (P := 64) (K := 6401/100) (lit_fin hf 64 64.0) (lit_val hf 64 64.0) hm1 (by norm_num)
  have s41 := t40.sub hf hV t41 (P := 77) (K := 15403/100)
  have t42 := Tr.mulc hf hV (B := 126) (P := 126) (K := 12601/100) (lit_fin hf 126 126.0) (lit_val hf 126 126.0) hz (by norm_num)
  have s42 := s41.add hf hV t42 (P := 203) (K := 9661/20)
  have t43 := Tr.mulc hf hV (B := 124) (P := 124) (K := 12401/100) (lit_fin hf 124 124.0) (lit_val hf 124 124.0) hp1 (by norm_num)
  have s43 := s42.sub hf hV t43 (P := 327) (K := 93407/100)
  have t44 := Tr.mulc hf hV (B := 61) (P := 61) (K := 6101/100) (lit_fin hf 61 61.0) (lit_val hf 61 61.0) hp2 (by norm_num)
  have s44 := s43.add hf hV t44 (P := 388) (K := 138309/100)
  have t45 := Tr.mulc hf hV (B := 12) (P := 12) (K := 1201/100) (lit_fin hf 12 12.0) (lit_val hf 12 12.0) hp3 (by norm_num)
  have s45 := s44.sub hf hV t45 (P := 400) (K := 179511/100)
  have a4 := Tr.divc hf hV (P := 1667/100) (K := 9147/100) (lit_fin hf 24 24.0) (lit_val hf 24 24.0) (by norm_num) s45
  have t50 := Tr.mulc hf hV (B := 5) (P := 5) (K := 501/100) (litN_fin hf 5 5.0) (litN_val hf 5 5.0) hm2 (by norm_num)
  have t51 := Tr.mulc hf hV (B := 25) (P := 25) (K := 2501/100) (lit_fin hf 25 25.0) (lit_val hf 25 25.0) hm1 (by norm_num)
  have s51 := t50.add hf hV t51 (P := 30) (K := 6003/100)
  have t52 := Tr.mulc hf hV (B := 50) (P := 50) (K := 5001/100) (lit_fin hf 50 50.0) (lit_val hf 50 50.0) hz (by norm_num)
  have s52 := s51.sub hf hV t52 (P := 80) (K := 3801/20)
  have t53 := Tr.mulc hf hV (B := 50) (P := 50) (K := 5001/100) (lit_fin hf 50 50.0) (lit_val hf 50 50.0) hp1 (by norm_num)
  have s53 := s52.add hf hV t53 (P := 130) (K := 37007/100)
  have t54 := Tr.mulc hf hV (B := 25) (P := 25) (K := 2501/100) (lit_fin hf 25 25.0) (lit_val hf 25 25.0) hp2 (by norm_num)
  have s54 := s53.sub hf hV t54 (P := 155) (K := 55009/100)
  have t55 := Tr.mulc hf hV (B := 5) (P := 5) (K := 501/100) (lit_fin hf 5 5.0) (lit_val hf 5 5.0) hp3 (by norm_num)
  have s55 := s54.add hf hV t55 (P := 160) (K := 71511/100)
  have a5 := Tr.divc hf hV (P := 667/100) (K := 3647/100) (lit_fin hf 24 24.0) (lit_val hf 24 24.0) (by norm_num) s55
  have q1 := a1.mulp hf hV hd (abs_le.2 ⟨by linarith, D1⟩) he (K := 709/50)
  have r1 := hz.add hf hV q1 (P := 5/2) (K := 1669/100)
  have q2 := a2.mulp hf hV (pw 2 (by norm_num)).1 (pw 2 (by norm_num)).2.1 (pw 2 (by norm_num)).2.2 (K := 2931/50)
  have r2 := r1.add hf hV q2 (P := 517/100) (K := 8049/100)
  have q3 := a3.mulp hf hV (pw 3 (by norm_num)).1 (pw 3 (by norm_num)).2.1 (pw 3 (by norm_num)).2.2 (K := 24779/100)
  have r3 := r2.add hf hV q3 (P := 1451/100) (K := 1714/5)
  have q4 := a4.mulp hf hV (pw 4 (by norm_num)).1 (pw 4 (by norm_num)).2.1 (pw 4 (by norm_num)).2.2 (K := 50823/100)
  have r4 := r3.add hf hV q4 (P := 1559/50) (K := 44111/50)
  have q5 := a5.mulp hf hV (pw 5 (by norm_num)).1 (pw 5 (by norm_num)).2.1 (pw 5 (by norm_num)).2.2 (K := 22991/100)
  have r5 := r4.add hf hV q5 (P := 757/20) (K := 114999/100)
  refine Tr.mono (Tr.congr r5 ?_) hV (by norm_num) (by norm_num)
  rw [spraguePoly_real]; push_cast; ring

/-- near the ends: two values on either side may be extrapolated -/
theorem poly_ends [Libm f] (hf : Std f) (hp : PowiAccurate f) {V : ℝ} (hV : Scale V)
    {m2 m1 z p1 p2 p3 d : FP f} {M2 M1 Z P1 P2 P3 D : ℝ}
    (hm2 : Tr V m2 M2 (2341/50) (6829/25))
    (hm1 : Tr V m1 M1 (991/100) (6343/100))
    (hz : Tr V z Z (1) (0))
    (hp1 : Tr V p1 P1 (1) (0))
    (hp2 : Tr V p2 P2 (991/100) (6343/100))
    (hp3 : Tr V p3 P3 (2341/50) (6829/25))
    (hd : d.isFinite = true) (h0 : 0 ≤ d.val) (h1 : d.val ≤ 1) (D0 : 0 ≤ D) (D1 : D ≤ 1)
    (he : |(d.val : ℝ) - D| ≤ 4 * f.u) :
    Tr V (spraguePoly (spragueA m2 m1 z p1 p2 p3) d) (spraguePoly (spragueA M2 M1 Z P1 P2 P3) D) 246 8940 := by
  have pw := powi_err hf hp hd h0 h1 D0 D1 he
  have t10 := Tr.mulc hf hV (B := 2) (P := 2341/25) (K := 63997/100) (lit_fin hf 2 2.0) (lit_val hf 2 2.0) hm2 (by norm_num)
  have t11 := Tr.mulc hf hV (B := 16) (P := 3964/25) (K := 23469/20) (lit_fin hf 16 16.0) (lit_val hf 16 16.0) hm1 (by norm_num)
  have s11 := t10.sub hf hV t11 (P := 1261/5) (K := 206563/100)
  have t12 := Tr.mulc hf hV (B := 16) (P := 16) (K := 1601/100) (lit_fin hf 16 16.0) (lit_val hf 16 16.0) hp1 (by norm_num)
  have s12 := s11.add hf hV t12 (P := 1341/5) (K := 46997/20)
  have t13 := Tr.mulc hf hV (B := 2) (P := 991/50) (K := 14669/100) (lit_fin hf 2 2.0) (lit_val hf 2 2.0) hp2 (by norm_num)
  have s13 := s12.sub hf hV t13 (P := 14401/50) (K := 278457/100)
  have a1 := Tr.divc hf hV (P := 1201/100) (K := 3201/25) (lit_fin hf 24 24.0) (lit_val hf 24 24.0) (by norm_num) s13
  have t20 := hm2.neg
  have t21 := Tr.mulc hf hV (B := 16) (P := 3964/25) (K := 23469/20) (lit_fin hf 16 16.0) (lit_val hf 16 16.0) hm1 (by norm_num)
  have s21 := t20.add hf hV t21 (P := 10269/50) (K := 1652)
  have t22 := Tr.mulc hf hV (B := 30) (P := 30) (K := 3001/100) (lit_fin hf 30 30.0) (lit_val hf 30 30.0) hz (by norm_num)
  have s22 := s21.sub hf hV t22 (P := 11769/50) (K := 9587/5)
  have t23 := Tr.mulc hf hV (B := 16) (P := 16) (K := 1601/100) (lit_fin hf 16 16.0) (lit_val hf 16 16.0) hp1 (by norm_num)
  have s23 := s22.add hf hV t23 (P := 12569/50) (K := 10924/5)
  have t24 := hp2
  have s24 := s23.sub hf hV t24 (P := 26129/100) (K := 250953/100)
  have a2 := Tr.divc hf hV (P := 1089/100) (K := 5773/50) (lit_fin hf 24 24.0) (lit_val hf 24 24.0) (by norm_num) s24
  have t30 := Tr.mulc hf hV (B := 9) (P := 21069/50) (K := 287983/100) (litN_fin hf 9 9.0) (litN_val hf 9 9.0) hm2 (by norm_num)
  have t31 := Tr.mulc hf hV (B := 39) (P := 38649/100) (K := 286027/100) (lit_fin hf 39 39.0) (lit_val hf 39 39.0) hm1 (by norm_num)
  have s31 := t30.add hf hV t31 (P := 80787/100) (K := 327399/50)
  have t32 := Tr.mulc hf hV (B := 70) (P := 70) (K := 7001/100) (lit_fin hf 70 70.0) (lit_val hf 70 70.0) hz (by norm_num)
  have s32 := s31.sub hf hV t32 (P := 87787/100) (K := 749587/100)
  have t33 := Tr.mulc hf hV (B := 66) (P := 66) (K := 6601/100) (lit_fin hf 66 66.0) (lit_val hf 66 66.0) hp1 (by norm_num)
  have s33 := s32.add hf hV t33 (P := 94387/100) (K := 212644/25)
  have t34 := Tr.mulc hf hV (B := 33) (P := 32703/100) (K := 242023/100) (lit_fin hf 33 33.0) (lit_val hf 33 33.0) hp2 (by norm_num)
  have s34 := s33.sub hf hV t34 (P := 12709/10) (K := 121969/10)
  have t35 := Tr.mulc hf hV (B := 7) (P := 16387/50) (K := 223987/100) (lit_fin hf 7 7.0) (lit_val hf 7 7.0) hp3 (by norm_num)
  have s35 := s34.add hf hV t35 (P := 39966/25) (K := 801771/50)
  have a3 := Tr.divc hf hV (P := 6661/100) (K := 18369/25) (lit_fin hf 24 24.0) (lit_val hf 24 24.0) (by norm_num) s35
  have t40 := Tr.mulc hf hV (B := 13) (P := 30433/50) (K := 16639/4) (lit_fin hf 13 13.0) (lit_val hf 13 13.0) hm2 (by norm_num)
  have t41 := Tr.mulc hf hV (B := 64) (P := 15856/25) (K := 469377/100) (lit_fin hf 64 64.0) (lit_val hf 64 64.0) hm1 (by norm_num)
  have s41 := t40.sub hf hV t41 (P := 12429/10) (K := 1009643/100)
  have t42 := Tr.mulc hf hV (B := 126) (P := 126) (K := 12601/100) (lit_fin hf 126 126.0) (lit_val hf 126 126.0) hz (by norm_num)
  have s42 := s41.add hf hV t42 (P := 13689/10) (K := 231827/20)
  have t43 := Tr.mulc hf hV (B := 124) (P := 124) (K := 12401/100) (lit_fin hf 124 124.0) (lit_val hf 124 124.0) hp1 (by norm_num)
  have s43 := s42.sub hf hV t43 (P := 14929/10) (K := 1320827/100)
  have t44 := Tr.mulc hf hV (B := 61) (P := 60451/100) (K := 17895/4) (lit_fin hf 61 61.0) (lit_val hf 61 61.0) hp2 (by norm_num)
  have s44 := s43.add hf hV t44 (P := 209741/100) (K := 494486/25)
  have t45 := Tr.mulc hf hV (B := 12) (P := 14046/25) (K := 383977/100) (lit_fin hf 12 12.0) (lit_val hf 12 12.0) hp3 (by norm_num)
  have s45 := s44.sub hf hV t45 (P := 10637/4) (K := 2627847/100)
  have a4 := Tr.divc hf hV (P := 11081/100) (K := 4823/4) (lit_fin hf 24 24.0) (lit_val hf 24 24.0) (by norm_num) s45
  have t50 := Tr.mulc hf hV (B := 5) (P := 2341/10) (K := 159991/100) (litN_fin hf 5 5.0) (litN_val hf 5 5.0) hm2 (by norm_num)
  have t51 := Tr.mulc hf hV (B := 25) (P := 991/4) (K := 183351/100) (lit_fin hf 25 25.0) (lit_val hf 25 25.0) hm1 (by norm_num)
  have s51 := t50.add hf hV t51 (P := 9637/20) (K := 97882/25)
  have t52 := Tr.mulc hf hV (B := 50) (P := 50) (K := 5001/100) (lit_fin hf 50 50.0) (lit_val hf 50 50.0) hz (by norm_num)
  have s52 := s51.sub hf hV t52 (P := 10637/20) (K := 89943/20)
  have t53 := Tr.mulc hf hV (B := 50) (P := 50) (K := 5001/100) (lit_fin hf 50 50.0) (lit_val hf 50 50.0) hp1 (by norm_num)
  have s53 := s52.add hf hV t53 (P := 11637/20) (K := 256451/50)
  have t54 := Tr.mulc hf hV (B := 25) (P := 991/4) (K := 183351/100) (lit_fin hf 25 25.0) (lit_val hf 25 25.0) hp2 (by norm_num)
  have s54 := s53.sub hf hV t54 (P := 4148/5) (K := 389607/50)
  have t55 := Tr.mulc hf hV (B := 5) (P := 2341/10) (K := 159991/100) (lit_fin hf 5 5.0) (lit_val hf 5 5.0) hp3 (by norm_num)
  have s55 := s54.add hf hV t55 (P := 10637/10) (K := 261394/25)
  have a5 := Tr.divc hf hV (P := 4433/100) (K := 47999/100) (lit_fin hf 24 24.0) (lit_val hf 24 24.0) (by norm_num) s55
  have q1 := a1.mulp hf hV hd (abs_le.2 ⟨by linarith, D1⟩) he (K := 1881/10)
  have r1 := hz.add hf hV q1 (P := 1301/100) (K := 5028/25)
  have q2 := a2.mulp hf hV (pw 2 (by norm_num)).1 (pw 2 (by norm_num)).2.1 (pw 2 (by norm_num)).2.2 (K := 1503/5)
  have r2 := r1.add hf hV q2 (P := 239/10) (K := 52563/100)
  have q3 := a3.mulp hf hV (pw 3 (by norm_num)).1 (pw 3 (by norm_num)).2.1 (pw 3 (by norm_num)).2.2 (K := 106679/50)
  have r3 := r2.add hf hV q3 (P := 9051/100) (K := 274973/100)
  have q4 := a4.mulp hf hV (pw 4 (by norm_num)).1 (pw 4 (by norm_num)).2.1 (pw 4 (by norm_num)).2.2 (K := 397601/100)
  have r4 := r3.add hf hV q4 (P := 5033/25) (K := 692707/100)
  have q5 := a5.mulp hf hV (pw 5 (by norm_num)).1 (pw 5 (by norm_num)).2.1 (pw 5 (by norm_num)).2.2 (K := 176557/100)
  have r5 := r4.add hf hV q5 (P := 4913/20) (K := 89383/10)
  refine Tr.mono (Tr.congr r5 ?_) hV (by norm_num) (by norm_num)
  rw [spraguePoly_real]; push_cast; ring

end
end CS

import Verif.Model.Hero
import Verif.Num.Real
import Mathlib.MeasureTheory.Integral.IntervalIntegral.Basic
import Mathlib.Topology.MetricSpace.Lipschitz

/-!
# Hero-wavelength sampling (C120)
-/

namespace CS

/-! ## Helper lemmas -/

namespace Hero

section
variable (xb yb zb ill rho : ℝ → Res ℝ) (X Y Z D R : ℝ → ℝ)

/-- what a wavelength adds to the estimate -/
def term (l : ℝ) : XYZ ℝ := ⟨X l * (D l * R l), Y l * (D l * R l), Z l * (D l * R l)⟩

variable {xb yb zb ill rho X Y Z D R}

theorem steps_eq (ls : List ℝ) (hx : ∀ l ∈ ls, xb l = .ok (X l)) (hy : ∀ l ∈ ls, yb l = .ok (Y l))
    (hz : ∀ l ∈ ls, zb l = .ok (Z l)) (hd : ∀ l ∈ ls, ill l = .ok (D l)) (hr : ∀ l ∈ ls, rho l = .ok (R l))
    (acc : XYZ ℝ) :
    ls.foldlM (heroStep xb yb zb ill rho) acc = .ok (ls.foldl (fun a l => a + term X Y Z D R l) acc) := by
  induction ls generalizing acc with
  | nil => rfl
  | cons l t ih =>
    rw [List.foldlM_cons]
    have e : heroStep xb yb zb ill rho acc l = .ok (acc + term X Y Z D R l) := by
      unfold heroStep
      rw [hr l (by simp), hd l (by simp), hx l (by simp), hy l (by simp), hz l (by simp)]
      rfl
    rw [e]
    exact ih (fun k hk => hx k (by simp [hk])) (fun k hk => hy k (by simp [hk])) (fun k hk => hz k (by simp [hk]))
      (fun k hk => hd k (by simp [hk])) (fun k hk => hr k (by simp [hk])) _

theorem turns_eq (n : ℕ) (qs : List (ℝ × ℕ)) (hx : ∀ q ∈ qs, ∀ l ∈ heroLambda n q.2 q.1, xb l = .ok (X l))
    (hy : ∀ q ∈ qs, ∀ l ∈ heroLambda n q.2 q.1, yb l = .ok (Y l))
    (hz : ∀ q ∈ qs, ∀ l ∈ heroLambda n q.2 q.1, zb l = .ok (Z l))
    (hd : ∀ q ∈ qs, ∀ l ∈ heroLambda n q.2 q.1, ill l = .ok (D l))
    (hr : ∀ q ∈ qs, ∀ l ∈ heroLambda n q.2 q.1, rho l = .ok (R l)) (acc : XYZ ℝ) :
    qs.foldlM (heroTurn xb yb zb ill rho n) acc =
      .ok ((qs.flatMap fun q => heroLambda n q.2 q.1).foldl (fun a l => a + term X Y Z D R l) acc) := by
  induction qs generalizing acc with
  | nil => rfl
  | cons q t ih =>
    rw [List.foldlM_cons]
    have e : heroTurn xb yb zb ill rho n acc q =
        .ok ((heroLambda n q.2 q.1).foldl (fun a l => a + term X Y Z D R l) acc) :=
      steps_eq _ (hx q (by simp)) (hy q (by simp)) (hz q (by simp)) (hd q (by simp)) (hr q (by simp)) acc
    rw [e, List.flatMap_cons, List.foldl_append]
    exact ih (fun k hk => hx k (by simp [hk])) (fun k hk => hy k (by simp [hk])) (fun k hk => hz k (by simp [hk]))
      (fun k hk => hd k (by simp [hk])) (fun k hk => hr k (by simp [hk])) _

end

theorem foldl_x (G : ℝ → XYZ ℝ) (ls : List ℝ) (acc : XYZ ℝ) :
    (ls.foldl (fun a l => a + G l) acc).x = acc.x + (ls.map fun l => (G l).x).sum := by
  induction ls generalizing acc with
  | nil => simp
  | cons l t ih =>
    rw [List.foldl_cons, ih, List.map_cons, List.sum_cons, ← add_assoc]; rfl

theorem foldl_y (G : ℝ → XYZ ℝ) (ls : List ℝ) (acc : XYZ ℝ) :
    (ls.foldl (fun a l => a + G l) acc).y = acc.y + (ls.map fun l => (G l).y).sum := by
  induction ls generalizing acc with
  | nil => simp
  | cons l t ih =>
    rw [List.foldl_cons, ih, List.map_cons, List.sum_cons, ← add_assoc]; rfl

theorem foldl_z (G : ℝ → XYZ ℝ) (ls : List ℝ) (acc : XYZ ℝ) :
    (ls.foldl (fun a l => a + G l) acc).z = acc.z + (ls.map fun l => (G l).z).sum := by
  induction ls generalizing acc with
  | nil => simp
  | cons l t ih =>
    rw [List.foldl_cons, ih, List.map_cons, List.sum_cons, ← add_assoc]; rfl

/-- the point at `u` of stratum `j` of `n` -/
noncomputable def point (n j : ℕ) (u : ℝ) : ℝ := 360 + 420 * ((j + u) / n)

theorem wrap_eq (l : ℝ) : heroWrap l = if 780 ≤ l then l - 420 else l := by
  unfold heroWrap heroEnd heroRange heroEnd heroStart
  have e1 : (Flt.lit 780.0 : ℝ) = 780 := by simp only [flt_lit]; norm_num
  have e2 : (Flt.lit 360.0 : ℝ) = 360 := by simp only [flt_lit]; norm_num
  rw [e1, e2]
  show (if Flt.le (780 : ℝ) l = true then _ else _) = _
  simp only [flt_le, decide_eq_true_eq]
  split <;> norm_num

/-- the four wavelengths are at the same place in four strata, a quarter of the strata apart -/
theorem lambda_eq (m i : ℕ) (u : ℝ) (hi : i < 4 * m) (h0 : 0 ≤ u) (h1 : u < 1) :
    heroLambda (4 * m) i u = [point (4 * m) (i % (4 * m)) u, point (4 * m) ((i + m) % (4 * m)) u,
      point (4 * m) ((i + 2 * m) % (4 * m)) u, point (4 * m) ((i + 3 * m) % (4 * m)) u] := by
  have hm : (0 : ℝ) < m := by
    have : 0 < m := by omega
    exact_mod_cast this
  have e1 : (Flt.lit 780.0 : ℝ) = 780 := by simp only [flt_lit]; norm_num
  have e2 : (Flt.lit 360.0 : ℝ) = 360 := by simp only [flt_lit]; norm_num
  have e3 : (Flt.lit 4.0 : ℝ) = 4 := by simp only [flt_lit]; norm_num
  have e4 : (Flt.lit 2.0 : ℝ) = 2 := by simp only [flt_lit]; norm_num
  have e5 : (Flt.lit 3.0 : ℝ) = 3 := by simp only [flt_lit]; norm_num
  have key : ∀ k : ℕ, k ≤ 3 → heroWrap (360 + (i + u) / ((4 * m : ℕ) : ℝ) * (780 - 360) + k * 105) =
      point (4 * m) ((i + k * m) % (4 * m)) u := by
    intro k hk
    have ek : (360 + (i + u) / ((4 * m : ℕ) : ℝ) * (780 - 360) + k * 105 : ℝ) =
        360 + 420 * (((i + k * m : ℕ) + u) / ((4 * m : ℕ) : ℝ)) := by
      push_cast
      field_simp
      ring
    rw [ek, wrap_eq]
    unfold point
    have hN : (0 : ℝ) < ((4 * m : ℕ) : ℝ) := by push_cast; linarith
    by_cases hw : i + k * m < 4 * m
    · rw [Nat.mod_eq_of_lt hw, if_neg]
      rw [not_le]
      have : (((i + k * m : ℕ) : ℝ) + u) < ((4 * m : ℕ) : ℝ) := by
        have : ((i + k * m : ℕ) : ℝ) + 1 ≤ ((4 * m : ℕ) : ℝ) := by exact_mod_cast hw
        linarith
      have := (div_lt_one hN).2 this
      linarith
    · have hk3 : k * m ≤ 3 * m := Nat.mul_le_mul_right _ hk
      have hlt : i + k * m - 4 * m < 4 * m := by omega
      rw [Nat.mod_eq_sub_mod (by omega), Nat.mod_eq_of_lt hlt, if_pos]
      · rw [Nat.cast_sub (by omega)]
        field_simp
        ring
      · have : ((4 * m : ℕ) : ℝ) ≤ (((i + k * m : ℕ) : ℝ) + u) := by
          have : ((4 * m : ℕ) : ℝ) ≤ ((i + k * m : ℕ) : ℝ) := by exact_mod_cast (by omega : 4 * m ≤ i + k * m)
          linarith
        have := (one_le_div hN).2 this
        linarith
  unfold heroLambda heroX heroRange heroEnd heroStart
  rw [e1, e2, e3, e4, e5]
  simp only [List.map_cons, List.map_nil, flt_ofNat]
  have k0 := key 0 (by norm_num)
  have k1 := key 1 (by norm_num)
  have k2 := key 2 (by norm_num)
  have k3 := key 3 (by norm_num)
  norm_num at k0 k1 k2 k3 ⊢
  exact ⟨k0, k1, k2, k3⟩

theorem point_mem (n j : ℕ) (u : ℝ) (hj : j < n) (h0 : 0 ≤ u) (h1 : u < 1) :
    360 + 420 * ((j : ℝ) / n) ≤ point n j u ∧ point n j u ≤ 360 + 420 * ((j + 1 : ℕ) / n) ∧
    360 ≤ point n j u ∧ point n j u ≤ 780 := by
  have hn : (0 : ℝ) < n := by
    have : 0 < n := by omega
    exact_mod_cast this
  have hj' : (j : ℝ) + 1 ≤ n := by exact_mod_cast hj
  have hj0 : (0 : ℝ) ≤ j := Nat.cast_nonneg j
  have a1 : (j : ℝ) / n ≤ (j + u) / n := by gcongr; linarith
  have a2 : (j + u) / n ≤ ((j + 1 : ℕ) : ℝ) / n := by push_cast; gcongr
  have a3 : 0 ≤ (j + u) / n := by positivity
  have a4 : (j + u) / n ≤ 1 := (div_le_one hn).2 (by linarith)
  unfold point
  refine ⟨by linarith, by linarith, by linarith, by linarith⟩

/-- one stratum: the value anywhere in it, against the mean -/
theorem stratum (g : ℝ → ℝ) (L : ℝ) (hL : ∀ a ∈ Set.Icc (360:ℝ) 780, ∀ b ∈ Set.Icc (360:ℝ) 780, |g a - g b| ≤ L * |a - b|)
    (a b p : ℝ) (ha : 360 ≤ a) (hab : a ≤ p) (hpb : p ≤ b) (hb : b ≤ 780) :
    |(b - a) * g p - ∫ t in a..b, g t| ≤ L * (b - a) * (b - a) := by
  have hsub : Set.uIcc a b ⊆ Set.Icc (360:ℝ) 780 := by
    rw [Set.uIcc_of_le (hab.trans hpb)]
    exact Set.Icc_subset_Icc ha hb
  have hL0 : 0 ≤ L := by
    have h := hL 360 (by norm_num) 361 (by norm_num)
    norm_num at h
    exact (abs_nonneg _).trans h
  have hc : ContinuousOn g (Set.Icc (360:ℝ) 780) := by
    refine LipschitzOnWith.continuousOn (K := L.toNNReal) ?_
    refine LipschitzOnWith.of_dist_le_mul fun x hx y hy => ?_
    rw [Real.dist_eq, Real.dist_eq, Real.coe_toNNReal _ hL0]
    exact hL x hx y hy
  have hi : IntervalIntegrable g MeasureTheory.volume a b := (hc.mono hsub).intervalIntegrable
  have e : (b - a) * g p - ∫ t in a..b, g t = ∫ t in a..b, (g p - g t) := by
    rw [intervalIntegral.integral_sub intervalIntegrable_const hi, intervalIntegral.integral_const, smul_eq_mul]
  rw [e]
  have := intervalIntegral.norm_integral_le_of_norm_le_const (a := a) (b := b) (f := fun t => g p - g t)
    (C := L * (b - a)) (fun t ht => by
      rw [Set.uIoc_of_le (hab.trans hpb)] at ht
      rw [Real.norm_eq_abs]
      refine (hL p ⟨ha.trans hab, hpb.trans hb⟩ t ⟨ha.trans ht.1.le, ht.2.trans hb⟩).trans ?_
      refine mul_le_mul_of_nonneg_left (abs_le.2 ⟨?_, ?_⟩) hL0 <;> linarith [ht.1, ht.2])
  rwa [Real.norm_eq_abs, abs_of_nonneg (by linarith : 0 ≤ b - a)] at this

/-- strata taken in another order -/
theorem rotate (I : ℕ → ℝ) (n c : ℕ) (hn : 0 < n) :
    ∑ i ∈ Finset.range n, I ((i + c) % n) = ∑ j ∈ Finset.range n, I j := by
  have : NeZero n := ⟨hn.ne'⟩
  rw [← Fin.sum_univ_eq_sum_range (fun i => I ((i + c) % n)), ← Fin.sum_univ_eq_sum_range I]
  rw [← Equiv.sum_comp (Equiv.addRight (Fin.ofNat n c)) (fun i : Fin n => I i.val)]
  refine Finset.sum_congr rfl fun i _ => ?_
  congr 1
  simp [Fin.val_add]

/-- the strata, each visited once -/
theorem strata (g : ℝ → ℝ) (L : ℝ) (hL : ∀ a ∈ Set.Icc (360:ℝ) 780, ∀ b ∈ Set.Icc (360:ℝ) 780, |g a - g b| ≤ L * |a - b|)
    (n c : ℕ) (hn : 0 < n) (p : ℕ → ℝ)
    (hp : ∀ i < n, 360 + 420 * ((((i + c) % n : ℕ) : ℝ) / n) ≤ p i ∧ p i ≤ 360 + 420 * ((((i + c) % n + 1 : ℕ) : ℝ) / n)) :
    |(∑ i ∈ Finset.range n, g (p i)) - n / 420 * ∫ t in (360:ℝ)..780, g t| ≤ 420 * L := by
  have hn' : (0 : ℝ) < n := by exact_mod_cast hn
  let a : ℕ → ℝ := fun j => 360 + 420 * ((j : ℝ) / n)
  have ha0 : a 0 = 360 := by simp [a]
  have han : a n = 780 := by simp only [a]; rw [div_self hn'.ne']; norm_num
  have hstep : ∀ j, a (j + 1) - a j = 420 / n := by
    intro j; simp only [a]; push_cast; field_simp; ring
  have hmono : ∀ i j, i ≤ j → a i ≤ a j := by
    intro i j hij
    simp only [a]
    have : (i : ℝ) ≤ j := by exact_mod_cast hij
    gcongr
  have hcont : ContinuousOn g (Set.Icc (360:ℝ) 780) := by
    have hL0 : 0 ≤ L := by
      have h := hL 360 (by norm_num) 361 (by norm_num)
      norm_num at h
      exact (abs_nonneg _).trans h
    refine LipschitzOnWith.continuousOn (K := L.toNNReal) ?_
    refine LipschitzOnWith.of_dist_le_mul fun x hx y hy => ?_
    rw [Real.dist_eq, Real.dist_eq, Real.coe_toNNReal _ hL0]
    exact hL x hx y hy
  let I : ℕ → ℝ := fun j => ∫ t in a j..a (j + 1), g t
  have hsum : ∑ j ∈ Finset.range n, I j = ∫ t in (360:ℝ)..780, g t := by
    rw [← ha0, ← han]
    refine intervalIntegral.sum_integral_adjacent_intervals fun k hk => ?_
    refine (hcont.mono ?_).intervalIntegrable
    rw [Set.uIcc_of_le (hmono _ _ (by omega)), ← ha0, ← han]
    exact Set.Icc_subset_Icc (hmono _ _ (by omega)) (hmono _ _ (by omega))
  have hrot := rotate I n c hn
  rw [← hsum, ← hrot, Finset.mul_sum, ← Finset.sum_sub_distrib]
  refine (Finset.abs_sum_le_sum_abs _ _).trans ?_
  have hterm : ∀ i ∈ Finset.range n, |g (p i) - n / 420 * I ((i + c) % n)| ≤ 420 * L / n := by
    intro i hi
    rw [Finset.mem_range] at hi
    have hj : (i + c) % n < n := Nat.mod_lt _ hn
    obtain ⟨p1, p2⟩ := hp i hi
    generalize (i + c) % n = j at hj p1 p2
    have h := stratum g L hL (a j) (a (j + 1)) (p i) (by rw [← ha0]; exact hmono _ _ (by omega)) p1 p2
      (by rw [← han]; exact hmono _ _ (by omega))
    rw [hstep] at h
    have e : g (p i) - n / 420 * I j = n / 420 * (420 / n * g (p i) - I j) := by
      field_simp
    rw [e, abs_mul, abs_of_pos (by positivity : (0:ℝ) < n / 420)]
    calc (n / 420 : ℝ) * |420 / n * g (p i) - I j| ≤ n / 420 * (L * (420 / n) * (420 / n)) := by gcongr
      _ = 420 * L / n := by field_simp
  refine (Finset.sum_le_sum hterm).trans ?_
  rw [Finset.sum_const, Finset.card_range, nsmul_eq_mul]
  refine le_of_eq ?_
  field_simp

/-- the strata, each visited once, where the end of the last may be taken at the start of the first -/
theorem strata_wrap (g : ℝ → ℝ) (L : ℝ)
    (hL : ∀ a ∈ Set.Icc (360:ℝ) 780, ∀ b ∈ Set.Icc (360:ℝ) 780, |g a - g b| ≤ L * |a - b|)
    (n c : ℕ) (hn : 0 < n) (p : ℕ → ℝ)
    (hp : ∀ i < n, (360 + 420 * ((((i + c) % n : ℕ) : ℝ) / n) ≤ p i ∧ p i ≤ 360 + 420 * ((((i + c) % n + 1 : ℕ) : ℝ) / n)) ∨
      ((i + c) % n = n - 1 ∧ p i = 360)) :
    |(∑ i ∈ Finset.range n, g (p i)) - n / 420 * ∫ t in (360:ℝ)..780, g t| ≤ 840 * L := by
  classical
  have hL0 : 0 ≤ L := by
    have h := hL 360 (by norm_num) 361 (by norm_num)
    norm_num at h
    exact (abs_nonneg _).trans h
  have hn' : (0 : ℝ) < n := by exact_mod_cast hn
  let p' : ℕ → ℝ := fun i => if (i + c) % n = n - 1 ∧ p i = 360 then 780 else p i
  have h1 := strata g L hL n c hn p' (fun i hi => by
    simp only [p']
    by_cases h : (i + c) % n = n - 1 ∧ p i = 360
    · rw [if_pos h, h.1, Nat.sub_add_cancel hn, div_self hn'.ne']
      refine ⟨?_, by norm_num⟩
      have : (((n - 1 : ℕ) : ℝ) / n) ≤ 1 := (div_le_one hn').2 (by exact_mod_cast Nat.sub_le n 1)
      linarith
    · rw [if_neg h]
      exact (hp i hi).resolve_right h)
  have h2 : |(∑ i ∈ Finset.range n, g (p i)) - ∑ i ∈ Finset.range n, g (p' i)| ≤ 420 * L := by
    rw [← Finset.sum_sub_distrib]
    refine (Finset.abs_sum_le_sum_abs _ _).trans ?_
    have e : ∑ i ∈ Finset.range n, (fun j => if j = n - 1 then 420 * L else 0) ((i + c) % n) = 420 * L := by
      rw [rotate (fun j => if j = n - 1 then 420 * L else 0) n c hn, Finset.sum_ite_eq', if_pos]
      exact Finset.mem_range.2 (by omega)
    refine (Finset.sum_le_sum fun i _ => ?_).trans e.le
    simp only [p']
    by_cases h : (i + c) % n = n - 1 ∧ p i = 360
    · rw [if_pos h, if_pos h.1, h.2]
      have := hL 360 (by norm_num) 780 (by norm_num)
      norm_num at this
      linarith
    · rw [if_neg h, sub_self, abs_zero]
      split <;> positivity
  have := abs_add_le ((∑ i ∈ Finset.range n, g (p i)) - ∑ i ∈ Finset.range n, g (p' i))
    ((∑ i ∈ Finset.range n, g (p' i)) - n / 420 * ∫ t in (360:ℝ)..780, g t)
  rw [sub_add_sub_cancel] at this
  linarith

/-- the sum over all draws -/
theorem sum_draws (g : ℝ → ℝ) (m : ℕ) (us : List ℝ) (hl : us.length = 4 * m) (hu : ∀ u ∈ us, 0 ≤ u ∧ u < 1) :
    ((us.zipIdx.flatMap fun q => heroLambda (4 * m) q.2 q.1).map g).sum =
      ∑ k ∈ Finset.range 4, ∑ i ∈ Finset.range (4 * m), g (point (4 * m) ((i + k * m) % (4 * m)) (us.getD i 0)) := by
  have key : ∀ (l : List (ℝ × ℕ)), (∀ q ∈ l, q.2 < 4 * m ∧ 0 ≤ q.1 ∧ q.1 < 1) →
      ((l.flatMap fun q => heroLambda (4 * m) q.2 q.1).map g).sum =
        (l.map fun q => ∑ k ∈ Finset.range 4, g (point (4 * m) ((q.2 + k * m) % (4 * m)) q.1)).sum := by
    intro l
    induction l with
    | nil => intro _; rfl
    | cons q t ih =>
      intro h
      rw [List.flatMap_cons, List.map_append, List.sum_append, ih (fun r hr => h r (by simp [hr])), List.map_cons,
        List.sum_cons]
      obtain ⟨q1, q2, q3⟩ := h q (by simp)
      rw [lambda_eq m q.2 q.1 q1 q2 q3]
      congr 1
      simp [Finset.sum_range_succ]
      ring
  rw [key]
  · rw [Finset.sum_comm]
    have e : (us.zipIdx.map fun q => ∑ k ∈ Finset.range 4, g (point (4 * m) ((q.2 + k * m) % (4 * m)) q.1)) =
        (List.range (4 * m)).map fun i => ∑ k ∈ Finset.range 4, g (point (4 * m) ((i + k * m) % (4 * m)) (us.getD i 0)) := by
      refine List.ext_getElem (by simp [hl]) fun i h1 h2 => ?_
      have hi : i < us.length := by simpa using h1
      simp [List.getElem?_eq_getElem hi]
    rw [e]
    rfl
  · intro q hq
    obtain ⟨i, hi, e⟩ := List.mem_iff_getElem.1 hq
    rw [List.getElem_zipIdx] at e
    have hi' : i < us.length := by simpa using hi
    rw [← e]
    exact ⟨by simp; omega, hu _ (List.getElem_mem hi')⟩

/-- one component of the estimate -/
theorem component (g : ℝ → ℝ) (L : ℝ) (hL : ∀ a ∈ Set.Icc (360:ℝ) 780, ∀ b ∈ Set.Icc (360:ℝ) 780, |g a - g b| ≤ L * |a - b|)
    (m : ℕ) (hm : 0 < m) (us : List ℝ) (hl : us.length = 4 * m) (hu : ∀ u ∈ us, 0 ≤ u ∧ u < 1) :
    |((us.zipIdx.flatMap fun q => heroLambda (4 * m) q.2 q.1).map g).sum / ((4 * m : ℕ) : ℝ) -
      4 / 420 * ∫ t in (360:ℝ)..780, g t| ≤ 1680 * L / us.length := by
  have hm' : (0:ℝ) < ((4 * m : ℕ) : ℝ) := by exact_mod_cast (by omega : 0 < 4 * m)
  rw [sum_draws g m us hl hu, hl]
  have hk : ∀ k ∈ Finset.range 4, |(∑ i ∈ Finset.range (4 * m), g (point (4 * m) ((i + k * m) % (4 * m)) (us.getD i 0))) -
      ((4 * m : ℕ) : ℝ) / 420 * ∫ t in (360:ℝ)..780, g t| ≤ 420 * L := fun k _ =>
    strata g L hL (4 * m) (k * m) (by omega) _ (fun i hi => by
      have e : us.getD i 0 = us[i]'(by omega) := by simp [List.getD, List.getElem?_eq_getElem (by omega : i < us.length)]
      obtain ⟨u0, u1⟩ := hu _ (List.getElem_mem (by omega : i < us.length))
      rw [e]
      obtain ⟨q1, q2, -⟩ := point_mem (4 * m) ((i + k * m) % (4 * m)) us[i] (Nat.mod_lt _ (by omega)) u0 u1
      exact ⟨q1, q2⟩)
  have h := (Finset.abs_sum_le_sum_abs _ _).trans (Finset.sum_le_sum hk)
  rw [Finset.sum_sub_distrib, Finset.sum_const, Finset.sum_const, Finset.card_range, nsmul_eq_mul, nsmul_eq_mul] at h
  set S := ∑ k ∈ Finset.range 4, ∑ i ∈ Finset.range (4 * m), g (point (4 * m) ((i + k * m) % (4 * m)) (us.getD i 0))
  set J := ∫ t in (360:ℝ)..780, g t
  set N := ((4 * m : ℕ) : ℝ)
  have e : S / N - 4 / 420 * J = (S - ((4 : ℕ) : ℝ) * (N / 420 * J)) / N := by push_cast; field_simp
  rw [e, abs_div, abs_of_pos hm']
  refine (div_le_div_iff_of_pos_right hm').2 (h.trans (le_of_eq ?_))
  push_cast; ring

end Hero

/-! ## C120 -/

/-- an evaluator that gives the values of the function `F` between 360 and 780 nm -/
def Spec.Draws (e : ℝ → Res ℝ) (F : ℝ → ℝ) : Prop := ∀ x, 360 ≤ x → x ≤ 780 → e x = .ok (F x)

/-- `g` changes by at most `L` per nm between 360 and 780 nm -/
def Spec.Slope (L : ℝ) (g : ℝ → ℝ) : Prop :=
  ∀ a ∈ Set.Icc (360:ℝ) 780, ∀ b ∈ Set.Icc (360:ℝ) 780, |g a - g b| ≤ L * |a - b|

/-- C120 [R]: whatever random numbers are drawn, hero-wavelength sampling with a number of samples that four divides does not
panic, and estimates 4/420 of the integrals of colour matching function, illuminant and reflectance over 360..780 nm within
1680 `L` over the number of samples, where `L` bounds the slope of the integrands. -/
theorem C120_converges (xb yb zb ill rho : ℝ → Res ℝ) (X Y Z D R : ℝ → ℝ) (hx : Spec.Draws xb X) (hy : Spec.Draws yb Y)
    (hz : Spec.Draws zb Z) (hd : Spec.Draws ill D) (hr : Spec.Draws rho R) (L : ℝ)
    (lx : Spec.Slope L fun t => X t * (D t * R t)) (ly : Spec.Slope L fun t => Y t * (D t * R t))
    (lz : Spec.Slope L fun t => Z t * (D t * R t)) (us : List ℝ) (hne : us ≠ []) (h4 : 4 ∣ us.length)
    (hu : ∀ u ∈ us, 0 ≤ u ∧ u < 1) :
    ∃ c, heroXyz xb yb zb ill rho us = .ok c ∧
      |c.x - 4 / 420 * ∫ t in (360:ℝ)..780, X t * (D t * R t)| ≤ 1680 * L / us.length ∧
      |c.y - 4 / 420 * ∫ t in (360:ℝ)..780, Y t * (D t * R t)| ≤ 1680 * L / us.length ∧
      |c.z - 4 / 420 * ∫ t in (360:ℝ)..780, Z t * (D t * R t)| ≤ 1680 * L / us.length := by
  obtain ⟨m, hm⟩ := h4
  have hm0 : 0 < m := by
    rcases Nat.eq_zero_or_pos m with h | h
    · subst h; exact absurd (List.length_eq_zero_iff.1 hm) hne
    · exact h
  have hin : ∀ q ∈ us.zipIdx, ∀ l ∈ heroLambda us.length q.2 q.1, 360 ≤ l ∧ l ≤ 780 := by
    intro q hq l hl
    obtain ⟨i, hi, e⟩ := List.mem_iff_getElem.1 hq
    rw [List.getElem_zipIdx] at e
    have hi' : i < us.length := by simpa using hi
    obtain ⟨u0, u1⟩ := hu _ (List.getElem_mem hi')
    rw [← e, hm] at hl
    simp only [zero_add] at hl
    rw [Hero.lambda_eq m i _ (by omega) u0 u1] at hl
    have hp : ∀ j, 360 ≤ Hero.point (4 * m) (j % (4 * m)) us[i] ∧ Hero.point (4 * m) (j % (4 * m)) us[i] ≤ 780 := fun j =>
      (Hero.point_mem (4 * m) (j % (4 * m)) _ (Nat.mod_lt _ (by omega)) u0 u1).2.2
    simp only [List.mem_cons, List.not_mem_nil, or_false] at hl
    rcases hl with rfl | rfl | rfl | rfl <;> exact hp _
  have e := Hero.turns_eq us.length us.zipIdx (fun q hq l hl => hx l (hin q hq l hl).1 (hin q hq l hl).2)
    (fun q hq l hl => hy l (hin q hq l hl).1 (hin q hq l hl).2) (fun q hq l hl => hz l (hin q hq l hl).1 (hin q hq l hl).2)
    (fun q hq l hl => hd l (hin q hq l hl).1 (hin q hq l hl).2) (fun q hq l hl => hr l (hin q hq l hl).1 (hin q hq l hl).2)
    (XYZ.fromScalar (Flt.lit 0.0))
  unfold heroXyz
  rw [e]
  have z0 : (Flt.lit 0.0 : ℝ) = 0 := by simp only [flt_lit]; norm_num
  refine ⟨_, rfl, ?_, ?_, ?_⟩
  · show |XYZ.x (List.foldl _ _ _) / Flt.ofNat us.length - _| ≤ _
    rw [Hero.foldl_x]
    show |(Flt.lit 0.0 + _) / _ - _| ≤ _
    rw [z0, zero_add, flt_ofNat]
    have := Hero.component _ L lx m hm0 us hm hu
    rw [← hm] at this
    exact this
  · show |XYZ.y (List.foldl _ _ _) / Flt.ofNat us.length - _| ≤ _
    rw [Hero.foldl_y]
    show |(Flt.lit 0.0 + _) / _ - _| ≤ _
    rw [z0, zero_add, flt_ofNat]
    have := Hero.component _ L ly m hm0 us hm hu
    rw [← hm] at this
    exact this
  · show |XYZ.z (List.foldl _ _ _) / Flt.ofNat us.length - _| ≤ _
    rw [Hero.foldl_z]
    show |(Flt.lit 0.0 + _) / _ - _| ≤ _
    rw [z0, zero_add, flt_ofNat]
    have := Hero.component _ L lz m hm0 us hm hu
    rw [← hm] at this
    exact this

/-- the hypotheses are met: colour matching `t`, 1 and 2, light 1, reflectance one half, eight samples -/
example : ∃ c, heroXyz (fun t => .ok t) (fun _ => .ok 1) (fun _ => .ok 2) (fun _ => .ok 1) (fun _ => .ok (1/2))
      (List.replicate 8 (1/3 : ℝ)) = .ok c ∧
      |c.x - 4 / 420 * ∫ t in (360:ℝ)..780, t * (1 * (1/2))| ≤ 1680 * 1 / ((List.replicate 8 (1/3 : ℝ)).length) := by
  obtain ⟨c, h, hx, -, -⟩ := C120_converges (fun t => .ok t) (fun _ => .ok 1) (fun _ => .ok 2) (fun _ => .ok 1)
    (fun _ => .ok (1/2)) (fun t => t) (fun _ => 1) (fun _ => 2) (fun _ => 1) (fun _ => 1/2) (fun _ _ _ => rfl)
    (fun _ _ _ => rfl) (fun _ _ _ => rfl) (fun _ _ _ => rfl) (fun _ _ _ => rfl) 1
    (fun a _ b _ => by
      simp only
      rw [← sub_mul, abs_mul, one_mul, mul_comm]
      exact mul_le_mul_of_nonneg_right (by norm_num) (abs_nonneg _))
    (fun a _ b _ => by simp) (fun a _ b _ => by simp) (List.replicate 8 (1/3 : ℝ)) (by simp) ⟨2, by simp⟩
    (fun u hu => by rw [List.eq_of_mem_replicate hu]; norm_num)
  exact ⟨c, h, hx⟩

/-- C120 [R]: the reflectance uplifted from a colour, as the second and third loop of the example evaluate it, is the combination
of the three basis reflectances. -/
theorem C120_rho (mr mg mb : ℝ → Res ℝ) (R G B : ℝ → ℝ) (hr : Spec.Draws mr R) (hg : Spec.Draws mg G) (hb : Spec.Draws mb B)
    (c : RGBf ℝ) : Spec.Draws (heroRho mr mg mb c) fun t => c.r * R t + c.g * G t + c.b * B t := by
  intro x h1 h2
  unfold heroRho
  rw [hr x h1 h2, hg x h1 h2, hb x h1 h2]
  show Except.ok _ = Except.ok _
  congr 1
  ring

example : heroRho (fun t => .ok t) (fun _ => .ok 10) (fun _ => .ok 100) ⟨2, 3, 4⟩ (400:ℝ) = .ok 1230 := by
  rw [C120_rho _ _ _ (fun t => t) (fun _ => 10) (fun _ => 100) (fun _ _ _ => rfl) (fun _ _ _ => rfl) (fun _ _ _ => rfl)
    ⟨2, 3, 4⟩ 400 (by norm_num) (by norm_num)]
  norm_num

end CS

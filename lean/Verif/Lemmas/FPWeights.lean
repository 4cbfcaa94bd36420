import Verif.Props.Weights
import Verif.Lemmas.FPGrid
import Verif.Lemmas.FPIntegrate

/-! The ASTM E2022 weights in floating point: coefficients, and following an accumulation cell by cell. -/

namespace CS

section
variable {f : Fmt} [Libm f]

/-! ### The Lagrange coefficients at a 10 nm interval -/

theorem scale_one : Scale (1 : ℝ) := ⟨by norm_num, by norm_num⟩

/-- a difference of small whole numbers is exact -/
theorem whole_diff (hf : Std f) {x y : FP f} {n m : ℕ} (hx : Whole x n) (hy : Whole y m) (hn : n ≤ 2 ^ 20)
    (hm : m ≤ 2 ^ 20) : (x - y).isFinite = true ∧ ((x - y).val : ℝ) = n - m := by
  rcases Nat.le_total m n with h | h
  · have := hx.sub hf hy h (by omega)
    refine ⟨this.fin, ?_⟩
    rw [this.real, Nat.cast_sub h]
  · have r := FP.isRep_neg (rep_whole hf (n := m - n) (by omega))
    have e : x.val - y.val = -((m - n : ℕ) : ℚ) := by rw [hx.val, hy.val, Nat.cast_sub h]; ring
    obtain ⟨a, b⟩ := FP.sub_finite hx.fin hy.fin (by rw [e, r.1]; exact r.2)
    refine ⟨a, ?_⟩
    rw [b, e, r.1, Nat.cast_sub h]
    push_cast; ring

/-- division by an exactly known number of size at least 1 -/
theorem Tr.divs (hf : Std f) {V : ℝ} (hV : Scale V) {a c : FP f} {X C M k K : ℝ} (hc : c.isFinite = true)
    (hC : (c.val : ℝ) = C) (h1 : 1 ≤ |C|) (ha : Tr V a X M k) (hk : 0 ≤ k := by norm_num)
    (hP2 : M ≤ 10 ^ 6 := by norm_num) (hE : k ≤ 10 ^ 6 := by norm_num)
    (hK : rnd k M ≤ K := by norm_num [rnd]) : Tr V (a / c) (X / C) M K := by
  have hp := hV.pos
  have u0 := hf.u_bounds.1
  have hC0 : 0 < |C| := by linarith
  have e1 : |((a.val / c.val : ℚ) : ℝ) - X / C| ≤ k * (f.u * V) := by
    push_cast
    rw [hC, ← sub_div, abs_div]
    exact (div_le_self (abs_nonneg _) h1).trans ha.err
  have e2 : |X / C| ≤ M * V := by
    rw [abs_div]
    exact (div_le_self (abs_nonneg _) h1).trans ha.abs
  have hc0 : c.val ≠ 0 := by
    intro h; rw [h] at hC; simp at hC; rw [← hC] at hC0; simp at hC0
  obtain ⟨r, -⟩ := hV.range hf e1 e2 hP2 hk hE
  obtain ⟨c1, c2⟩ := FP.div_err ha.fin hc hc0 r
  exact Tr.round hf hV c1 c2 e1 e2 hP2 hk hE hK

theorem Tr.whole {x : FP f} {n : ℕ} (h : Whole x n) {M : ℝ} (hM : (n : ℝ) ≤ M) : Tr 1 x (n : ℝ) M 0 :=
  ⟨h.fin, by rw [abs_of_nonneg (Nat.cast_nonneg _), mul_one]; exact hM, by rw [h.real]; simp⟩

/-- one factor of a Lagrange coefficient -/
theorem lagrange_factor (hf : Std f) {r : FP f} {R : ℝ} (hr : Tr 1 r R 2.1 8.2) (i j : ℕ) (hi : i ≤ 3)
    (hj : j ≤ 3) (hij : i ≠ j) (hR : |R - i| ≤ 2) :
    Tr 1 ((r - Flt.ofNat i) / (Flt.ofNat j - Flt.ofNat i)) ((R - (Flt.ofNat i : ℝ)) / (Flt.ofNat j - Flt.ofNat i))
      2 18.6 := by
  have wi := Whole.ofNat hf i (by omega)
  have wj := Whole.ofNat hf j (by omega)
  have hi3 : (i : ℝ) ≤ 3 := by exact_mod_cast hi
  obtain ⟨d1, d2⟩ := whole_diff hf wj wi (by omega) (by omega)
  have h1 : 1 ≤ |((j : ℝ) - i)| := by
    have : (1 : ℤ) ≤ |(j : ℤ) - i| := Int.one_le_abs (by omega)
    exact_mod_cast this
  have t1 := Tr.sub hf scale_one hr (Tr.whole wi hi3) (P := 5.1) (K := 13.4)
  have t2 := Tr.divs hf scale_one d1 d2 h1 t1 (K := 18.6)
  refine ⟨t2.fin, ?_, t2.err⟩
  show |(R - (i : ℝ)) / (j - i)| ≤ _
  rw [abs_div, mul_one]
  exact (div_le_self (abs_nonneg _) h1).trans hR

theorem Tr.one (hf : Std f) : Tr 1 (Flt.lit 1.0 : FP f) (1 : ℝ) 1 0 := by
  have := Tr.whole (Whole.lit hf 1 one_pos (by norm_num) (1.0 : ℚ) (by norm_num)) (M := 1) (by norm_num)
  simpa using this

theorem mul1_tr (hf : Std f) {a b : FP f} {X Y M N k l K : ℝ} (ha : Tr 1 a X M k) (hb : Tr 1 b Y N l)
    (hk : 0 ≤ k := by norm_num) (hl : 0 ≤ l := by norm_num) (hM0 : 0 ≤ M := by norm_num)
    (hN0 : 0 ≤ N := by norm_num) (hMN : M * N ≤ 10 ^ 6 := by norm_num)
    (hE : M * l + k * N + k * l / 2 ^ 24 ≤ 10 ^ 6 := by norm_num)
    (hK : rnd (M * l + k * N + k * l / 2 ^ 24) (M * N) ≤ K := by norm_num [rnd]) :
    Tr 1 (a * b) (X * Y) (M * N) K := by
  have := Tr.mul hf one_pos one_pos (by rw [one_mul]; exact scale_one) ha hb hk hl hM0 hN0 hMN hE hK
  rwa [one_mul] at this

theorem lagrange3_tr (hf : Std f) {r : FP f} {R : ℝ} (hr : Tr 1 r R 2.1 8.2) (h0 : 0 ≤ R) (h1 : R ≤ 1) :
    List.Forall₂ (fun a X => Tr 1 a X 1 250) (lagrangeCoefficients r 3) (lagrangeCoefficients R 3) := by
  have hb : ∀ i : ℕ, i ≤ 2 → |R - i| ≤ 2 := by
    intro i hi
    have : (i : ℝ) ≤ 2 := by exact_mod_cast hi
    have : (0 : ℝ) ≤ i := Nat.cast_nonneg _
    rw [abs_le]; constructor <;> linarith
  have one : (Flt.lit 1.0 : ℝ) = 1 := by norm_num
  have key : ∀ j i k : ℕ, j ≤ 2 → i ≤ 2 → k ≤ 2 → i ≠ j → k ≠ j →
      |((R - (i:ℝ)) / (j - i)) * ((R - (k:ℝ)) / (j - k))| ≤ 1 →
      Tr 1 (Flt.lit 1.0 * ((r - Flt.ofNat i) / (Flt.ofNat j - Flt.ofNat i)) *
        ((r - Flt.ofNat k) / (Flt.ofNat j - Flt.ofNat k)))
        ((Flt.lit 1.0 : ℝ) * ((R - Flt.ofNat i) / (Flt.ofNat j - Flt.ofNat i)) *
          ((R - Flt.ofNat k) / (Flt.ofNat j - Flt.ofNat k))) 1 250 := by
    intro j i k hj hi hk hij hkj habs
    rw [one]
    have t1 := lagrange_factor hf hr i j (by omega) (by omega) hij (hb i hi)
    have t2 := lagrange_factor hf hr k j (by omega) (by omega) hkj (hb k hk)
    have s1 := mul1_tr hf (Tr.one hf) t1 (K := 20.7)
    have s2 := mul1_tr hf s1 t2 (K := 250)
    refine ⟨s2.fin, ?_, s2.err⟩
    rw [mul_one, one_mul]
    exact habs
  refine .cons (key 0 1 2 ?_ ?_ ?_ ?_ ?_ ?_) (.cons (key 1 0 2 ?_ ?_ ?_ ?_ ?_ ?_) (.cons (key 2 0 1 ?_ ?_ ?_ ?_ ?_ ?_) .nil))
  all_goals first | norm_num; done | skip
  all_goals (rw [abs_le]; norm_num; constructor <;> nlinarith)

theorem lagrange4_tr (hf : Std f) {r : FP f} {R : ℝ} (hr : Tr 1 r R 2.1 8.2) (h0 : 1 ≤ R) (h1 : R ≤ 2) :
    List.Forall₂ (fun a X => Tr 1 a X 1 250) (lagrangeCoefficients r 4) (lagrangeCoefficients R 4) := by
  have hb : ∀ i : ℕ, i ≤ 3 → |R - i| ≤ 2 := by
    intro i hi
    have : (i : ℝ) ≤ 3 := by exact_mod_cast hi
    have : (0 : ℝ) ≤ i := Nat.cast_nonneg _
    rw [abs_le]; constructor <;> linarith
  have one : (Flt.lit 1.0 : ℝ) = 1 := by norm_num
  have key : ∀ j i k l : ℕ, j ≤ 3 → i ≤ 3 → k ≤ 3 → l ≤ 3 → i ≠ j → k ≠ j → l ≠ j →
      |((R - (i:ℝ)) / (j - i)) * ((R - (k:ℝ)) / (j - k)) * ((R - (l:ℝ)) / (j - l))| ≤ 1 →
      Tr 1 (Flt.lit 1.0 * ((r - Flt.ofNat i) / (Flt.ofNat j - Flt.ofNat i)) *
        ((r - Flt.ofNat k) / (Flt.ofNat j - Flt.ofNat k)) * ((r - Flt.ofNat l) / (Flt.ofNat j - Flt.ofNat l)))
        ((Flt.lit 1.0 : ℝ) * ((R - Flt.ofNat i) / (Flt.ofNat j - Flt.ofNat i)) *
          ((R - Flt.ofNat k) / (Flt.ofNat j - Flt.ofNat k)) * ((R - Flt.ofNat l) / (Flt.ofNat j - Flt.ofNat l))) 1 250 := by
    intro j i k l hj hi hk hl hij hkj hlj habs
    rw [one]
    have t1 := lagrange_factor hf hr i j (by omega) (by omega) hij (hb i hi)
    have t2 := lagrange_factor hf hr k j (by omega) (by omega) hkj (hb k hk)
    have t3 := lagrange_factor hf hr l j (by omega) (by omega) hlj (hb l hl)
    have s1 := mul1_tr hf (Tr.one hf) t1 (K := 20.7)
    have s2 := mul1_tr hf s1 t2 (K := 82.7)
    have s3 := mul1_tr hf s2 t3 (K := 250)
    refine ⟨s3.fin, ?_, s3.err⟩
    rw [mul_one, one_mul]
    exact habs
  have q1 : 0 ≤ (R - 1) * (2 - R) := mul_nonneg (by linarith) (by linarith)
  have q2 : 0 ≤ (R - 1) * (2 - R) * R := mul_nonneg q1 (by linarith)
  have q3 : 0 ≤ (R - 1) * (2 - R) * (3 - R) := mul_nonneg q1 (by linarith)
  have q4 : 0 ≤ R * (3 - R) * (R - 1) := mul_nonneg (mul_nonneg (by linarith) (by linarith)) (by linarith)
  have q5 : 0 ≤ R * (3 - R) * (2 - R) := mul_nonneg (mul_nonneg (by linarith) (by linarith)) (by linarith)
  refine .cons (key 0 1 2 3 ?_ ?_ ?_ ?_ ?_ ?_ ?_ ?_) (.cons (key 1 0 2 3 ?_ ?_ ?_ ?_ ?_ ?_ ?_ ?_)
    (.cons (key 2 0 1 3 ?_ ?_ ?_ ?_ ?_ ?_ ?_ ?_) (.cons (key 3 0 1 2 ?_ ?_ ?_ ?_ ?_ ?_ ?_ ?_) .nil)))
  all_goals first | norm_num; done | skip
  all_goals (rw [abs_le]; norm_num; constructor <;> nlinarith)

theorem Whole.asUInt {x : FP f} {n : ℕ} (hx : Whole x n) (h : n ≤ 2 ^ 24) : FP.asUInt (2 ^ 64 - 1) x = n := by
  have hv := hx.val
  have hfin := hx.fin
  cases x with
  | fin q hq =>
    simp only [FP.val] at hv
    subst hv
    show Nat.min _ _ = _
    rw [Int.floor_natCast, Int.toNat_natCast]
    exact Nat.min_eq_right (h.trans (by norm_num))
  | nzero =>
    simp only [FP.val] at hv
    have : n = 0 := by exact_mod_cast hv.symm
    subst this; rfl
  | _ => simp [FP.isFinite] at hfin

/-- the integer part of a quotient of whole numbers -/
theorem Whole.asUInt_div (hf : Std f) {x y : FP f} {n m : ℕ} (hx : Whole x n) (hy : Whole y m) (hm : 0 < m)
    (h : n ≤ 2 ^ 22) (hm2 : m ≤ 2 ^ 22) : FP.asUInt (2 ^ 64 - 1) (x / y) = n / m := by
  obtain ⟨a, b⟩ := Whole.div hf hx hy hm h hm2
  have hle : n / m ≤ 2 ^ 22 := (Nat.div_le_self _ _).trans h
  generalize x / y = q at *
  cases q with
  | nzero =>
    have : (0:ℤ) = ((n / m : ℕ) : ℤ) := by simpa [FP.val] using b
    simp only [FP.asUInt]
    exact_mod_cast this
  | fin q hq =>
    have b' : ⌊q⌋ = ((n / m : ℕ) : ℤ) := b
    show Nat.min _ _ = _
    rw [b', Int.toNat_natCast]
    exact Nat.min_eq_right (hle.trans (by norm_num))
  | _ => simp [FP.isFinite] at a

set_option maxHeartbeats 800000 in
/-- the coefficient rows for a 10 nm interval -/
theorem coefficients_tr (hf : Std f) {x : FP f} (hx : Whole x 10) (degree : ℕ) (hd : degree = 3 ∨ degree = 4) :
    ∃ c, lagrangeCoefficientsE2022 x degree = .ok c ∧
      List.Forall₂ (fun r R => List.Forall₂ (fun a X => Tr 1 a X 1 250) r R ∧ R.length = degree) c
        ((List.range 9).map fun j : ℕ => lagrangeCoefficients (((j:ℝ) + 1) / 10 + if degree = 4 then 1 else 0) degree) := by
  have w1 := Tr.one hf
  have t1 := Tr.divc hf scale_one hx.fin hx.real (by norm_num) w1 (P := 0.1) (K := 0.11)
  have t2 := Tr.sub hf scale_one w1 t1 (P := 1.1) (K := 1.22)
  have t3 := Tr.sub hf scale_one t2 t1 (P := 1.2) (K := 2.6)
  have w8 := Whole.ofNat hf 8 (by norm_num)
  have t4 := Tr.divc hf scale_one w8.fin w8.real (by norm_num) t3 (P := 0.15) (K := 0.5)
  have hD : ((1:ℝ) - 1 / (10:ℕ) - 1 / (10:ℕ)) / (8:ℕ) = 1 / 10 := by norm_num
  have hS : (1:ℝ) / (10:ℕ) = 1 / 10 := by norm_num
  have t4' : Tr 1 ((Flt.lit 1.0 - Flt.lit 1.0 / x - Flt.lit 1.0 / x) / Flt.ofNat 8 : FP f) (1 / 10) 0.1 0.5 :=
    ⟨t4.fin, by norm_num, by have := t4.err; rwa [hD] at this⟩
  have hpoint : ∀ k : ℕ, k < 9 → Tr 1 (Flt.ofNat k * ((Flt.lit 1.0 - Flt.lit 1.0 / x - Flt.lit 1.0 / x) / Flt.ofNat 8) +
      Flt.lit 1.0 / x : FP f) (((k:ℝ) + 1) / 10) 0.9 6 := by
    intro k hk
    have wk := Whole.ofNat hf k (by omega)
    have hk8 : (k:ℝ) ≤ 8 := by exact_mod_cast (by omega : k ≤ 8)
    have hk0 : (0:ℝ) ≤ k := Nat.cast_nonneg _
    have s1 := Tr.mulc hf scale_one wk.fin wk.real t4' (B := 8) (by rw [abs_of_nonneg hk0]; exact hk8)
      (P := 0.8) (K := 4.9)
    have s2 := Tr.add hf scale_one s1 t1 (P := 0.9) (K := 6)
    refine s2.congr ?_
    rw [hS]; ring
  have hfl : Flt.asUInt (2 ^ 64 - 1) x = 10 := hx.asUInt (by norm_num)
  refine ⟨_, by
    unfold lagrangeCoefficientsE2022 linspace usub
    rw [hfl, if_pos (by omega)]
    simp only [bind, Except.bind]
    rw [if_pos (by omega)], ?_⟩
  simp only [FloatRange.toList, FloatRange.drain_eq, List.map_map]
  rw [show min (10 - 1 + 1) (10 - 1 - 0) = 9 by rfl, ← List.range_eq_range']
  rw [List.forall₂_map_left_iff, List.forall₂_map_right_iff]
  refine List.forall₂_same.2 fun k hk => ?_
  have hk := List.mem_range.1 hk
  have hk8 : (k:ℝ) ≤ 8 := by exact_mod_cast (by omega : k ≤ 8)
  have hk0 : (0:ℝ) ≤ k := Nat.cast_nonneg _
  have tp := hpoint k hk
  simp only [Function.comp]
  refine ⟨?_, by rw [lagrange_length]⟩
  rcases hd with rfl | rfl
  · simp only [show (3 = 4) = False by simp, if_false]
    have z : Tr 1 (Flt.lit 0.0 : FP f) (0 : ℝ) 0 0 := by
      have e : (Flt.lit 0.0 : FP f) = FP.lit 0 := by show FP.lit _ = _; norm_num
      rw [e, FP.lit_zero]
      exact ⟨rfl, by norm_num, by norm_num [FP.val]⟩
    have tp' := Tr.add hf scale_one tp z (P := 2.1) (K := 8.2)
    refine lagrange3_tr hf ?_ ?_ ?_
    · exact tp'
    · positivity
    · rw [add_zero, div_le_one (by norm_num)]; linarith
  · simp only [if_true]
    have tp' := Tr.add hf scale_one tp w1 (P := 2.1) (K := 8.2)
    refine lagrange4_tr hf ?_ ?_ ?_
    · exact tp'
    · have : (0:ℝ) ≤ (k + 1) / 10 := by positivity
      linarith
    · have : ((k:ℝ) + 1) / 10 ≤ 1 := by rw [div_le_one (by norm_num)]; linarith
      linarith


/-! ### Following an accumulation -/

/-- both computations succeed, with related results -/
def RS {α β : Type} (R : α → β → Prop) (x : Res α) (y : Res β) : Prop :=
  ∃ a b, x = .ok a ∧ y = .ok b ∧ R a b

theorem RS.bind {α β α' β' : Type} {R : α → β → Prop} {Q : α' → β' → Prop} {x : Res α} {y : Res β}
    {F : α → Res α'} {G : β → Res β'} (h : RS R x y) (h' : ∀ a b, R a b → RS Q (F a) (G b)) :
    RS Q (x >>= F) (y >>= G) := by
  obtain ⟨a, b, rfl, rfl, hab⟩ := h
  exact h' a b hab

theorem RS.foldlM {ι γ α β : Type} {R : γ → α → β → Prop} (g : γ → ι → γ) {F : α → ι → Res α} {G : β → ι → Res β} :
    ∀ (L : List ι), (∀ i ∈ L, ∀ c a b, R c a b → RS (R (g c i)) (F a i) (G b i)) → ∀ c a b, R c a b →
      RS (R (L.foldl g c)) (L.foldlM F a) (L.foldlM G b) := by
  intro L
  induction L with
  | nil => intro _ c a b h; exact ⟨a, b, rfl, rfl, h⟩
  | cons i L ih =>
    intro hs c a b h
    rw [List.foldlM_cons, List.foldlM_cons, List.foldl_cons]
    exact RS.bind (hs i (by simp) c a b h) fun a' b' h' =>
      ih (fun j hj => hs j (List.mem_cons_of_mem _ hj)) _ a' b' h'

theorem RS.usub {a b n : ℕ} (h : CS.usub a b = .ok n) : RS (fun x y => x = n ∧ y = n) (CS.usub a b) (CS.usub a b) :=
  ⟨n, n, h, h, rfl, rfl⟩

theorem RS.idx {α β : Type} {R : α → β → Prop} {l : List α} {L : List β} (h : List.Forall₂ R l L) (k : ℕ)
    (hk : k < L.length) : RS R (CS.idx l k) (CS.idx L k) := by
  have hl : k < l.length := by rw [h.length_eq]; exact hk
  exact ⟨l[k], L[k], idx_ok _ _ hl, idx_ok _ _ hk, (List.forall₂_iff_get.1 h).2 k hl hk⟩

/-- the cells of `w` follow those of `W`; cell `k` has collected `c[k]` terms -/
structure Follows (V M E : ℝ) (t n : ℕ) (c : List ℕ) (w : List (FP f)) (W : List ℝ) : Prop where
  lc : c.length = n
  lw : w.length = n
  lW : W.length = n
  cell : ∀ (k : ℕ) (hk : k < n), c[k] ≤ t → Tr V (w[k]) (W[k]) (M * c[k]) (E * c[k])

/-- one more term in cell `k` -/
def bump (c : List ℕ) (k : ℕ) : List ℕ := c.set k (c.getD k 0 + 1)

/-- the constants of an accumulation of up to `t` terms of size `M` and error `k` -/
structure Budget (M k E : ℝ) (t : ℕ) : Prop where
  k0 : 0 ≤ k
  M0 : 0 ≤ M
  E0 : 0 ≤ E
  M1 : M * t ≤ 10 ^ 6
  E1 : E * t + k ≤ 10 ^ 6
  step : E * t / 10 ^ 7 + k * (1 + 1 / 10 ^ 7) + M * t + 1 / 10 ^ 9 ≤ E

theorem Follows.addAt (hf : Std f) {V M E k : ℝ} {t n : ℕ} (hV : Scale V) (hb : Budget M k E t) {c : List ℕ}
    {w : List (FP f)} {W : List ℝ} (h : Follows V M E t n c w W) {i : ℕ} (hi : i < n) {v : FP f} {x : ℝ}
    (hv : Tr V v x M k) : RS (Follows V M E t n (bump c i)) (CS.addAt w i v) (CS.addAt W i x) := by
  have hc := h.lc
  have hw := h.lw
  have hW := h.lW
  refine ⟨w.set i (w[i] + v), W.set i (W[i] + x), ?_, ?_, by simpa [bump] using hc, by simpa using hw,
    by simpa using hW, ?_⟩
  · unfold CS.addAt; rw [idx_ok _ _ (by omega)]; rfl
  · unfold CS.addAt; rw [idx_ok _ _ (by omega)]; rfl
  · intro j hj hle
    by_cases hij : i = j
    · subst hij
      have e : (bump c i)[i]'(by simp [bump]; omega) = c[i] + 1 := by
        simp only [bump, List.getElem_set_self]
        rw [List.getD_eq_getElem _ _ (by omega)]
      simp only [List.getElem_set_self]
      rw [e] at hle ⊢
      have tc := h.cell i hi (by omega)
      have hn1 : ((c[i] : ℕ) : ℝ) + 1 ≤ t := by exact_mod_cast hle
      have hn0 : (0:ℝ) ≤ ((c[i] : ℕ) : ℝ) := Nat.cast_nonneg _
      have b1 := hb.M0; have b2 := hb.E0; have b3 := hb.k0; have b4 := hb.M1; have b5 := hb.E1; have b6 := hb.step
      push_cast
      generalize ((c[i] : ℕ) : ℝ) = z at *
      have m1 : M * (z + 1) ≤ M * t := mul_le_mul_of_nonneg_left hn1 b1
      have m2 : E * (z + 1) ≤ E * t := mul_le_mul_of_nonneg_left hn1 b2
      have hkE : 0 ≤ E * z := mul_nonneg b2 hn0
      refine Tr.add hf hV tc hv hkE b3 (by linarith) (by linarith) (by linarith) ?_
      unfold rnd
      linarith
    · have e : (bump c i)[j]'(by simp [bump]; omega) = c[j] := by
        simp [bump, List.getElem_set_ne hij]
      rw [e] at hle
      simp only [List.getElem_set_ne hij, e]
      exact h.cell j hj hle

theorem Follows.init {V M k E : ℝ} {t n : ℕ} (hV : Scale V) (hb : Budget M k E t) {w : List (FP f)} {W : List ℝ}
    (h : List.Forall₂ (fun a X => Tr V a X M k) w W) (hl : W.length = n) :
    Follows V M E t n (List.replicate n 1) w W := by
  have hw : w.length = n := by rw [h.length_eq]; exact hl
  refine ⟨by simp, hw, hl, fun j hj _ => ?_⟩
  have := (List.forall₂_iff_get.1 h).2 j (by omega) (by omega)
  simp only [List.getElem_replicate, Nat.cast_one, mul_one]
  refine Tr.mono this hV le_rfl ?_
  have b1 := hb.M0; have b2 := hb.E0; have b3 := hb.k0; have b6 := hb.step
  have : (0:ℝ) ≤ M * t := mul_nonneg b1 (Nat.cast_nonneg _)
  have : (0:ℝ) ≤ E * t := mul_nonneg b2 (Nat.cast_nonneg _)
  linarith

theorem Follows.all (hf : Std f) {V M E : ℝ} {t n : ℕ} (hV : Scale V) (hM : 0 ≤ M) (hE : 0 ≤ E) {c : List ℕ}
    {w : List (FP f)} {W : List ℝ}
    (h : Follows V M E t n c w W) (hc : ∀ z ∈ c, z ≤ t) :
    List.Forall₂ (fun a X => Tr V a X (M * t) (E * t)) w W := by
  rw [List.forall₂_iff_get]
  have hlw := h.lw
  refine ⟨h.lw.trans h.lW.symm, fun i h1 h2 => ?_⟩
  have hlc := h.lc
  have hi : c[i]'(by omega) ≤ t := hc _ (List.getElem_mem _)
  have hi' : ((c[i]'(by omega) : ℕ) : ℝ) ≤ t := by exact_mod_cast hi
  exact (h.cell i (by omega) hi).mono hV (mul_le_mul_of_nonneg_left hi' hM) (mul_le_mul_of_nonneg_left hi' hE)

theorem stepBy_sim {α β : Type} {R : α → β → Prop} {l : List α} {L : List β} (h : List.Forall₂ R l L) (n : ℕ) :
    List.Forall₂ R (stepBy n l) (stepBy n L) := by
  unfold stepBy
  rw [h.length_eq]
  have hL : ∀ i ∈ List.range L.length, i < L.length := fun i hi => List.mem_range.1 hi
  revert hL
  generalize List.range L.length = I
  intro hL
  induction I with
  | nil => exact .nil
  | cons i I ih =>
    have hi := hL i (by simp)
    have hi' : i < l.length := by rw [h.length_eq]; exact hi
    have ih := ih fun j hj => hL j (List.mem_cons_of_mem _ hj)
    rw [List.filterMap_cons, List.filterMap_cons]
    by_cases hm : i % n = 0
    · simp only [if_pos hm, List.getElem?_eq_getElem hi, List.getElem?_eq_getElem hi']
      exact .cons ((List.forall₂_iff_get.1 h).2 i hi' hi) ih
    · simp only [if_neg hm]
      exact ih

theorem zipWith_sim {α α' β β' γ γ' : Type} {R : α → α' → Prop} {Q : β → β' → Prop} {P : γ → γ' → Prop}
    {F : α → β → γ} {G : α' → β' → γ'} (hFG : ∀ a a' b b', R a a' → Q b b' → P (F a b) (G a' b'))
    {l : List α} {L : List α'} (h : List.Forall₂ R l L) : ∀ {m : List β} {M : List β'}, List.Forall₂ Q m M →
      List.Forall₂ P (List.zipWith F l m) (List.zipWith G L M) := by
  induction h with
  | nil => intro m M _; simp
  | cons h _ ih =>
    intro m M h'
    cases h' with
    | nil => simp
    | cons h1 h2 => exact .cons (hFG _ _ _ _ h h1) (ih h2)

/-- how many terms each of the 43 cells collects -/
def channelCounts : List ℕ :=
  let c := List.replicate 43 1
  let c := (List.range 9).foldl (fun c _ => (List.range 3).foldl bump c) c
  let c := (List.range 9).foldl (fun c _ => (List.range' 40 3).reverse.foldl bump c) c
  (List.range 40).foldl (fun c j => (List.range 9).foldl (fun c _ => (List.range 4).foldl (fun c l => bump c (j + l)) c) c) c

theorem channelCounts_le : ∀ z ∈ channelCounts, z ≤ 37 := by decide +kernel

theorem channel_budget : Budget 1.934 25385 25465 37 :=
  ⟨by norm_num, by norm_num, by norm_num, by norm_num, by norm_num, by norm_num⟩

set_option maxHeartbeats 800000 in
/-- one channel of the weights, before scaling -/
theorem channel_follows (hf : Std f) {Vi Vc : ℝ} (hi1 : 1 / 2 ^ 16 ≤ Vi) (hi2 : Vi ≤ 2 ^ 16) (hc1 : 1 / 2 ^ 16 ≤ Vc)
    (hc2 : Vc ≤ 2 ^ 16) {s y : List (FP f)} {S Y : List ℝ}
    (hs : List.Forall₂ (fun a X => Tr Vi a X (89 / 64) 8950) s S) (hS : S.length = 421)
    (hy : List.Forall₂ (fun a X => Tr Vc a X (89 / 64) 8950) y Y) (hY : Y.length = 421)
    {cc cb : List (List (FP f))} {CC CB : List (List ℝ)}
    (hcc : List.Forall₂ (fun r R => List.Forall₂ (fun a X => Tr 1 a X 1 250) r R ∧ R.length = 3) cc CC)
    (hCC : CC.length = 9)
    (hcb : List.Forall₂ (fun r R => List.Forall₂ (fun a X => Tr 1 a X 1 250) r R ∧ R.length = 4) cb CB)
    (hCB : CB.length = 9) :
    RS (List.Forall₂ fun a X => Tr (Vi * Vc) a X (1.934 * 37) (25465 * 37))
      (weightsChannel s y cc cb 10 421 43) (weightsChannel S Y CC CB 10 421 43) := by
  have p2 : 0 < Vi := lt_of_lt_of_le (by positivity) hi1
  have p3 : 0 < Vc := lt_of_lt_of_le (by positivity) hc1
  have b1 : 1 / 2 ^ 32 ≤ Vi * Vc := by
    calc (1:ℝ) / 2 ^ 32 = 1 / 2 ^ 16 * (1 / 2 ^ 16) := by norm_num
      _ ≤ _ := mul_le_mul hi1 hc1 (by positivity) p2.le
  have b2 : Vi * Vc ≤ 2 ^ 32 := by
    calc _ ≤ (2:ℝ) ^ 16 * 2 ^ 16 := mul_le_mul hi2 hc2 p3.le (by positivity)
      _ = _ := by norm_num
  have S0 : Scale Vi := ⟨by norm_num at hi1 ⊢; linarith, by norm_num at hi2 ⊢; linarith⟩
  have S1 : Scale (Vi * Vc) := ⟨by norm_num at b1 ⊢; linarith, by norm_num at b2 ⊢; linarith⟩
  have hsl : s.length = 421 := by rw [hs.length_eq]; exact hS
  have hyl : y.length = 421 := by rw [hy.length_eq]; exact hY
  have hcbl : cb.length = 9 := by rw [hcb.length_eq]; exact hCB
  -- a term
  have hterm : ∀ {c a b : FP f} {C A B : ℝ}, Tr 1 c C 1 250 → Tr Vi a A (89 / 64) 8950 → Tr Vc b B (89 / 64) 8950 →
      Tr (Vi * Vc) (c * a * b) (C * A * B) 1.934 25385 := by
    intro c a b C A B h1 h2 h3
    have t1 := Tr.mul hf one_pos p2 (by rw [one_mul]; exact S0) h1 h2 (K := 9299.2)
    rw [one_mul] at t1
    have t2 := Tr.mul hf p2 p3 S1 t1 h3 (K := 25385)
    exact t2.mono S1 (by norm_num) le_rfl
  have hinit : List.Forall₂ (fun a X => Tr (Vi * Vc) a X 1.934 25385)
      (List.zipWith (· * ·) (stepBy 10 s) (stepBy 10 y)) (List.zipWith (· * ·) (stepBy 10 S) (stepBy 10 Y)) :=
    zipWith_sim (fun a A b B h1 h2 => by
      have t := Tr.mul hf p2 p3 S1 h1 h2 (K := 25385)
      exact t.mono S1 (by norm_num) le_rfl) (stepBy_sim hs 10) (stepBy_sim hy 10)
  have hlen : (List.zipWith (· * ·) (stepBy 10 S) (stepBy 10 Y)).length = 43 := by
    rw [stepBy_eq _ (by norm_num), stepBy_eq _ (by norm_num), hS, hY]; simp
  have h0 := Follows.init S1 channel_budget hinit hlen
  suffices RS (Follows (Vi * Vc) 1.934 25465 37 43 channelCounts) (weightsChannel s y cc cb 10 421 43)
      (weightsChannel S Y CC CB 10 421 43) by
    obtain ⟨a, b, e1, e2, h⟩ := this
    exact ⟨a, b, e1, e2, by
      have := h.all hf S1 (by norm_num) (by norm_num) channelCounts_le
      exact_mod_cast this⟩
  unfold weightsChannel
  rw [hcbl, hCB]
  refine RS.bind (RS.usub (n := 420) rfl) ?_
  rintro _ _ ⟨rfl, rfl⟩
  refine RS.bind (RS.usub (n := 421) rfl) ?_
  rintro _ _ ⟨rfl, rfl⟩
  refine RS.bind (RS.usub (n := 420) rfl) ?_
  rintro _ _ ⟨rfl, rfl⟩
  refine RS.bind (RS.usub (n := 411) rfl) ?_
  rintro _ _ ⟨rfl, rfl⟩
  refine RS.bind (RS.usub (n := 42) rfl) ?_
  rintro _ _ ⟨rfl, rfl⟩
  refine RS.bind (R := Follows (Vi * Vc) 1.934 25465 37 43 _)
    (RS.foldlM (fun c _ => (List.range 3).foldl bump c) _ ?_ _ _ _ h0) ?_
  · intro j hj c a b h
    have hj := List.mem_range.1 hj
    refine RS.foldlM _ _ ?_ _ _ _ h
    intro k hk c a b h
    have hk := List.mem_range.1 hk
    refine RS.bind (RS.idx hcc j (by omega)) fun r R hr => ?_
    refine RS.bind (RS.idx hr.1 k (by rw [hr.2]; omega)) fun c1 C1 hc1 => ?_
    refine RS.bind (RS.idx hs (j + 1) (by omega)) fun a1 A1 ha1 => ?_
    refine RS.bind (RS.idx hy (j + 1) (by omega)) fun d1 D1 hd1 => ?_
    exact h.addAt hf S1 channel_budget (by omega) (hterm hc1 ha1 hd1)
  intro w W h1
  refine RS.bind (RS.usub (n := 40) rfl) ?_
  rintro _ _ ⟨rfl, rfl⟩
  refine RS.bind (R := Follows (Vi * Vc) 1.934 25465 37 43 _)
    (RS.foldlM (fun c _ => (List.range' 40 3).reverse.foldl bump c) _ ?_ _ _ _ h1) ?_
  · intro j hj c a b h
    have hj := List.mem_range.1 hj
    refine RS.foldlM _ _ ?_ _ _ _ h
    intro k hk c a b h
    rw [List.mem_reverse, List.mem_range'_1] at hk
    refine RS.bind (RS.idx hcc (9 - j - 1) (by omega)) fun r R hr => ?_
    refine RS.bind (RS.idx hr.1 (42 - k) (by rw [hr.2]; omega)) fun c1 C1 hc1 => ?_
    refine RS.bind (RS.idx hs (j + 411) (by omega)) fun a1 A1 ha1 => ?_
    refine RS.bind (RS.idx hy (j + 411) (by omega)) fun d1 D1 hd1 => ?_
    exact h.addAt hf S1 channel_budget (by omega) (hterm hc1 ha1 hd1)
  intro w W h2
  refine RS.bind (RS.usub (n := 40) rfl) ?_
  rintro _ _ ⟨rfl, rfl⟩
  refine RS.bind (R := Follows (Vi * Vc) 1.934 25465 37 43 channelCounts)
    (RS.foldlM (fun c j => (List.range 9).foldl (fun c _ => (List.range 4).foldl (fun c l => bump c (j + l)) c) c)
      _ ?_ _ _ _ h2) ?_
  · intro j hj c a b h
    have hj := List.mem_range.1 hj
    refine RS.foldlM _ _ ?_ _ _ _ h
    intro k hk c a b h
    have hk := List.mem_range.1 hk
    refine RS.bind (RS.idx hcb k (by omega)) fun r R hr => ?_
    refine RS.bind (RS.idx hs ((9 + 1) * (j + 1) + 1 + k) (by omega)) fun a1 A1 ha1 => ?_
    refine RS.bind (RS.idx hy ((9 + 1) * (j + 1) + 1 + k) (by omega)) fun d1 D1 hd1 => ?_
    refine RS.foldlM _ _ ?_ _ _ _ h
    intro l hl c a b h
    have hl := List.mem_range.1 hl
    refine RS.bind (RS.idx hr.1 l (by rw [hr.2]; omega)) fun c1 C1 hc1 => ?_
    exact h.addAt hf S1 channel_budget (by omega) (hterm hc1 ha1 hd1)
  intro w W h3
  exact ⟨w, W, rfl, rfl, h3⟩

end
end CS

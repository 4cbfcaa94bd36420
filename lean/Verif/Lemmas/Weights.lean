import Verif.Props.Lagrange
import Verif.Model.ToXyz
import Verif.Spec

/-! # Lemmas about the weighting-factor accumulation -/

namespace CS

theorem filterMap_step (g : ℕ → ℝ) (n : ℕ) (hn : 0 < n) (L : ℕ) :
    (List.range L).filterMap (fun i => if i % n = 0 then some (g i) else none)
      = (List.range ((L + n - 1) / n)).map fun k => g (k * n) := by
  induction L with
  | zero =>
    have : (0 + n - 1) / n = 0 := Nat.div_eq_of_lt (by omega)
    rw [this]; simp
  | succ L ih =>
    rw [List.range_succ, List.filterMap_append, ih]
    by_cases h : L % n = 0
    · have e1 : (L + n - 1) / n = L / n := by
        obtain ⟨q, rfl⟩ := Nat.dvd_of_mod_eq_zero h
        rw [Nat.mul_div_cancel_left _ hn, show n * q + n - 1 = n - 1 + n * q by omega,
          Nat.add_mul_div_left _ _ hn, Nat.div_eq_of_lt (by omega)]; omega
      have e2 : (L + 1 + n - 1) / n = L / n + 1 := by
        rw [show L + 1 + n - 1 = L + n by omega, Nat.add_div_right _ hn]
      rw [e1, e2, List.range_succ, List.map_append]
      have : L / n * n = L := Nat.div_mul_cancel (Nat.dvd_of_mod_eq_zero h)
      simp [h, this]
    · have e : (L + 1 + n - 1) / n = (L + n - 1) / n := by
        have hd := Nat.div_add_mod L n
        have hlt := Nat.mod_lt L hn
        generalize L / n = q at *
        generalize L % n = r at *
        rw [show L + 1 + n - 1 = r + n * (q + 1) by rw [Nat.mul_add, Nat.mul_one]; omega,
          show L + n - 1 = (r - 1) + n * (q + 1) by rw [Nat.mul_add, Nat.mul_one]; omega,
          Nat.add_mul_div_left _ _ hn, Nat.add_mul_div_left _ _ hn, Nat.div_eq_of_lt hlt,
          Nat.div_eq_of_lt (by omega)]
      rw [e]; simp [h]

theorem stepBy_eq (n : ℕ) (hn : 0 < n) (l : List ℝ) :
    stepBy n l = (List.range ((l.length + n - 1) / n)).map fun k => l.getD (k * n) 0 := by
  rw [← filterMap_step (fun i => l.getD i 0) n hn]
  unfold stepBy
  refine List.filterMap_congr fun i hi => ?_
  have hi := List.mem_range.1 hi
  rw [List.getD_eq_getElem _ _ hi, List.getElem?_eq_getElem hi]

/-- dot product of a list with a function of the index -/
noncomputable def dotR (R : ℕ → ℝ) (w : List ℝ) : ℝ :=
  ((List.range w.length).map fun k => w.getD k 0 * R k).sum

theorem dotR_eq (R : ℕ → ℝ) (w : List ℝ) :
    dotR R w = ∑ k ∈ Finset.range w.length, w.getD k 0 * R k := list_sum_range _ _

theorem dotR_set (R : ℕ → ℝ) (w : List ℝ) (k : ℕ) (hk : k < w.length) (v : ℝ) :
    dotR R (w.set k (w.getD k 0 + v)) = dotR R w + v * R k := by
  rw [dotR_eq, dotR_eq, List.length_set,
    ← Finset.add_sum_erase _ _ (Finset.mem_range.2 hk),
    ← Finset.add_sum_erase (Finset.range w.length) (fun j => w.getD j 0 * R j)
      (Finset.mem_range.2 hk)]
  have : ∀ j ∈ (Finset.range w.length).erase k,
      (w.set k (w.getD k 0 + v)).getD j 0 * R j = w.getD j 0 * R j := by
    intro j hj
    rw [List.getD_eq_getElem?_getD, List.getElem?_set_ne (Finset.ne_of_mem_erase hj).symm,
      ← List.getD_eq_getElem?_getD]
  rw [Finset.sum_congr rfl this]
  have hs : (w.set k (w.getD k 0 + v)).getD k 0 = w.getD k 0 + v := by
    rw [List.getD_eq_getElem _ _ (by simpa using hk)]; simp
  simp only [hs]
  ring

theorem addAt_ok (w : List ℝ) (k : ℕ) (hk : k < w.length) (v : ℝ) :
    addAt w k v = .ok (w.set k (w.getD k 0 + v)) := by
  unfold addAt idx
  rw [List.getElem?_eq_getElem hk, List.getD_eq_getElem _ _ hk]
  rfl

/-- `f w` returns a list as long as `w` whose dot product with every `R` is larger by `g R` -/
def Adds (n : ℕ) (g : (ℕ → ℝ) → ℝ) (r : List ℝ → Res (List ℝ)) : Prop :=
  ∀ w, w.length = n → ∃ w', r w = .ok w' ∧ w'.length = n ∧ ∀ R, dotR R w' = dotR R w + g R

theorem Adds.addAt {n k : ℕ} (hk : k < n) (v : ℝ) :
    Adds n (fun R => v * R k) (fun w => CS.addAt w k v) := by
  intro w hw
  refine ⟨_, addAt_ok w k (by omega) v, by simpa using hw, fun R => dotR_set R w k (by omega) v⟩

theorem Adds.bind {n : ℕ} {g h : (ℕ → ℝ) → ℝ} {r q : List ℝ → Res (List ℝ)} (hr : Adds n g r)
    (hq : Adds n h q) : Adds n (fun R => g R + h R) (fun w => r w >>= q) := by
  intro w hw
  obtain ⟨w1, e1, l1, d1⟩ := hr w hw
  obtain ⟨w2, e2, l2, d2⟩ := hq w1 l1
  refine ⟨w2, ?_, l2, fun R => by rw [d2, d1]; ring⟩
  show (r w >>= q) = _
  rw [e1]; exact e2

theorem Adds.foldlM {α : Type} {n : ℕ} (L : List α) (f : List ℝ → α → Res (List ℝ))
    (g : α → (ℕ → ℝ) → ℝ) (h : ∀ x ∈ L, Adds n (g x) (fun w => f w x)) :
    Adds n (fun R => (L.map fun x => g x R).sum) (fun w => L.foldlM f w) := by
  induction L with
  | nil => intro w hw; exact ⟨w, rfl, hw, fun R => by simp⟩
  | cons x L ih =>
    intro w hw
    obtain ⟨w1, e1, l1, d1⟩ := h x (by simp) w hw
    obtain ⟨w2, e2, l2, d2⟩ := ih (fun y hy => h y (List.mem_cons_of_mem _ hy)) w1 l1
    refine ⟨w2, ?_, l2, fun R => by rw [d2, d1]; simp; ring⟩
    show (List.foldlM f w (x :: L)) = _
    rw [List.foldlM_cons]
    show (f w x >>= fun s' => List.foldlM f s' L) = _
    rw [show f w x = .ok w1 from e1]
    exact e2

theorem idx_ok {α : Type} (l : List α) (k : ℕ) (hk : k < l.length) : idx l k = .ok l[k] := by
  unfold idx; rw [List.getElem?_eq_getElem hk]

/-- splitting a sum over `q` blocks of `n + 1` -/
theorem sum_blocks (F : ℕ → ℝ) (n q : ℕ) :
    ∑ i ∈ Finset.range ((n + 1) * q), F i =
      ∑ b ∈ Finset.range q, (F ((n + 1) * b) + ∑ r ∈ Finset.range n, F ((n + 1) * b + 1 + r)) := by
  induction q with
  | zero => simp
  | succ q ih =>
    rw [Nat.mul_succ, Finset.sum_range_add, ih, Finset.sum_range_succ _ q, Finset.sum_range_succ' _ n]
    congr 1
    rw [add_comm]
    congr 1
    refine Finset.sum_congr rfl fun r _ => ?_
    congr 1; omega

theorem degree_comp_lt (P Q : Polynomial ℝ) (n : ℕ) (hn : 0 < n) (hP : P.degree < n)
    (hQ : Q.natDegree ≤ 1) : (P.comp Q).degree < n := by
  have h1 : P.natDegree < n := by
    by_cases h : P = 0
    · rw [h]; simpa using hn
    · exact (Polynomial.natDegree_lt_iff_degree_lt h).2 hP
  have h2 := Polynomial.natDegree_comp_le (p := P) (q := Q)
  have h3 : P.natDegree * Q.natDegree ≤ P.natDegree * 1 := Nat.mul_le_mul_left _ hQ
  refine lt_of_le_of_lt Polynomial.degree_le_natDegree ?_
  exact_mod_cast (by omega : (P.comp Q).natDegree < n)

theorem through_eval_node (a n : ℕ) (R : ℕ → ℝ) (j : ℕ) (hj : j < n) :
    Spec.through a n R ((a + j : ℕ) : ℝ) = R (a + j) :=
  Lagrange.eval_interpolate_at_node (v := fun k : ℕ => (k : ℝ)) R (injOn_cast _)
    (Finset.mem_Ico.2 ⟨by omega, by omega⟩)

theorem lagrange_sum_poly (r : ℝ) (n : ℕ) (P : Polynomial ℝ) (hP : P.degree < n) :
    ∑ j ∈ Finset.range n, (lagrangeCoefficients r n).getD j 0 * P.eval (j : ℝ) = P.eval r := by
  rw [← list_sum_range, lagrange_dot r n (fun j => P.eval (j : ℝ))]
  congr 1
  exact (Lagrange.eq_interpolate (injOn_cast _) (by simpa using hP)).symm

/-- the coefficients interpolate on any run of consecutive nodes -/
theorem lagrange_through (a n : ℕ) (hn : 0 < n) (R : ℕ → ℝ) (r : ℝ) :
    ∑ j ∈ Finset.range n, (lagrangeCoefficients r n).getD j 0 * R (a + j)
      = Spec.through a n R (a + r) := by
  have hd : (Lagrange.interpolate (Finset.Ico a (a + n)) (fun k : ℕ => (k : ℝ)) R).degree < n := by
    have := Lagrange.degree_interpolate_lt (s := Finset.Ico a (a + n)) (v := fun k : ℕ => (k : ℝ)) R
      (injOn_cast _)
    simpa using this
  have h := lagrange_sum_poly r n _ (degree_comp_lt _ (Polynomial.X + Polynomial.C (a:ℝ)) n hn hd
    (by rw [Polynomial.natDegree_X_add_C]))
  simp only [Polynomial.eval_comp, Polynomial.eval_add, Polynomial.eval_X, Polynomial.eval_C] at h
  unfold Spec.through
  rw [add_comm (a:ℝ) r, ← h]
  refine Finset.sum_congr rfl fun j hj => ?_
  congr 1
  rw [← through_eval_node a n R j (Finset.mem_range.1 hj)]
  unfold Spec.through
  push_cast
  rw [add_comm]

/-- ... and mirrored -/
theorem lagrange_through_rev (a n : ℕ) (hn : 0 < n) (R : ℕ → ℝ) (r : ℝ) :
    ∑ j ∈ Finset.range n, (lagrangeCoefficients r n).getD j 0 * R (a + (n - 1 - j))
      = Spec.through a n R (a + (n - 1) - r) := by
  have hd : (Lagrange.interpolate (Finset.Ico a (a + n)) (fun k : ℕ => (k : ℝ)) R).degree < n := by
    have := Lagrange.degree_interpolate_lt (s := Finset.Ico a (a + n)) (v := fun k : ℕ => (k : ℝ)) R
      (injOn_cast _)
    simpa using this
  have h := lagrange_sum_poly r n _ (degree_comp_lt _
    (Polynomial.C ((a:ℝ) + (n - 1)) - Polynomial.X) n hn hd (by
      refine le_trans (Polynomial.natDegree_sub_le _ _) ?_
      rw [Polynomial.natDegree_C, Polynomial.natDegree_X]; simp))
  simp only [Polynomial.eval_comp, Polynomial.eval_sub, Polynomial.eval_X, Polynomial.eval_C] at h
  unfold Spec.through
  rw [← h]
  refine Finset.sum_congr rfl fun j hj => ?_
  have hj := Finset.mem_range.1 hj
  congr 1
  rw [← through_eval_node a n R (n - 1 - j) (by omega)]
  unfold Spec.through
  congr 1
  rw [Nat.cast_add, Nat.cast_sub (by omega), Nat.cast_sub (by omega)]
  push_cast; ring

theorem usub_ok (a b : ℕ) (h : b ≤ a) : usub a b = .ok (a - b) := if_pos h

/-- the interpolated value at `i` nm when the measured interval `I` is divided at the points `p` -/
noncomputable def e2022At (p : ℕ → ℝ) (I m : ℕ) (R : ℕ → ℝ) (i : ℕ) : ℝ :=
  if I * m ≤ i then R m
  else if i % I = 0 then R (i / I)
  else if i / I = 0 then Spec.through 0 3 R (p (i % I - 1))
  else if i / I = m - 1 then Spec.through (m - 2) 3 R (m - p (I - 1 - i % I))
  else Spec.through (i / I - 1) 4 R ((i / I : ℕ) + p (i % I - 1))

theorem weightsChannel_ok (s y : List ℝ) (p : ℕ → ℝ) (I N : ℕ) (hI : 3 ≤ I) (hs : s.length = N)
    (hy : y.length = N) (hN : 2 * I + 1 ≤ N) :
    ∃ w, weightsChannel s y ((List.range (I - 1)).map fun j => lagrangeCoefficients (p j) 3)
      ((List.range (I - 1)).map fun j => lagrangeCoefficients (p j + 1) 4) I N ((N - 1) / I + 1)
        = .ok w ∧ w.length = (N - 1) / I + 1 ∧
      ∀ R, dotR R w = ∑ i ∈ Finset.range N, s.getD i 0 * y.getD i 0 * e2022At p I ((N - 1) / I) R i := by
  obtain ⟨c, rfl⟩ : ∃ c, I = c + 1 := ⟨I - 1, by omega⟩
  have hNm := Nat.div_add_mod (N - 1) (c + 1)
  have htl : (N - 1) % (c + 1) < c + 1 := Nat.mod_lt _ (by omega)
  have hm2 : 2 ≤ (N - 1) / (c + 1) := by
    rw [Nat.le_div_iff_mul_le (by omega)]; omega
  generalize hm : (N - 1) / (c + 1) = m at *
  generalize ht : (N - 1) % (c + 1) = t at *
  obtain ⟨m', rfl⟩ : ∃ m', m = m' + 2 := ⟨m - 2, by omega⟩
  have hmul : (c + 1) * (m' + 2) = (c + 1) * (m' + 1) + (c + 1) := by ring
  have hmul1 : (c + 1) * (m' + 1) = (c + 1) * m' + (c + 1) := by ring
  have hcc : ∀ j, j < c → ∀ k, k < 3 → ∃ row, idx ((List.range (c + 1 - 1)).map fun j =>
      lagrangeCoefficients (p j) 3) j = .ok row ∧
      idx row k = .ok ((lagrangeCoefficients (p j) 3).getD k 0) := by
    intro j hj k hk
    refine ⟨lagrangeCoefficients (p j) 3, ?_, ?_⟩
    · rw [idx_ok _ _ (by simpa using hj)]; simp
    · rw [idx_ok _ _ (by rw [lagrange_length]; exact hk), List.getD_eq_getElem]
  have hcb : ∀ j, j < c → idx ((List.range (c + 1 - 1)).map fun j =>
      lagrangeCoefficients (p j + 1) 4) j = .ok (lagrangeCoefficients (p j + 1) 4) := by
    intro j hj
    rw [idx_ok _ _ (by simpa using hj)]; simp
  have hcb' : ∀ j k, k < 4 → idx (lagrangeCoefficients (p j + 1) 4) k =
      .ok ((lagrangeCoefficients (p j + 1) 4).getD k 0) := by
    intro j k hk
    rw [idx_ok _ _ (by rw [lagrange_length]; exact hk), List.getD_eq_getElem]
  have hsv : ∀ k, k < N → idx s k = .ok (s.getD k 0) := by
    intro k hk; rw [idx_ok _ _ (by omega), List.getD_eq_getElem]
  have hyv : ∀ k, k < N → idx y k = .ok (y.getD k 0) := by
    intro k hk; rw [idx_ok _ _ (by omega), List.getD_eq_getElem]
  -- the four accumulation loops
  have A1 := Adds.foldlM (n := m' + 2 + 1) (List.range c) (fun w j =>
      (List.range 3).foldlM (fun w k => do
        let cv ← idx (← idx ((List.range (c + 1 - 1)).map fun j => lagrangeCoefficients (p j) 3) j) k
        let sv ← idx s (j + 1)
        let yv ← idx y (j + 1)
        addAt w k (cv * sv * yv)) w)
    (fun j R => ((List.range 3).map fun k => (lagrangeCoefficients (p j) 3).getD k 0 *
      s.getD (j + 1) 0 * y.getD (j + 1) 0 * R k).sum) (by
    intro j hj
    have hj := List.mem_range.1 hj
    refine Adds.foldlM (List.range 3) _ (fun k R => _) ?_
    intro k hk
    have hk := List.mem_range.1 hk
    obtain ⟨row, e1, e2⟩ := hcc j hj k hk
    simp only [e1, e2, hsv (j + 1) (by omega), hyv (j + 1) (by omega), bind, Except.bind]
    exact Adds.addAt (by omega) _)
  have A2 := Adds.foldlM (n := m' + 2 + 1) (List.range c) (fun w j =>
      (List.range' m' 3).reverse.foldlM (fun w k => do
        let cv ← idx (← idx ((List.range (c + 1 - 1)).map fun j => lagrangeCoefficients (p j) 3)
          (c - j - 1)) (m' + 2 - k)
        let sv ← idx s (j + ((c + 1) * (m' + 1) + 1))
        let yv ← idx y (j + ((c + 1) * (m' + 1) + 1))
        addAt w k (cv * sv * yv)) w)
    (fun j R => ((List.range' m' 3).reverse.map fun k =>
      (lagrangeCoefficients (p (c - j - 1)) 3).getD (m' + 2 - k) 0 *
      s.getD (j + ((c + 1) * (m' + 1) + 1)) 0 * y.getD (j + ((c + 1) * (m' + 1) + 1)) 0 * R k).sum) (by
    intro j hj
    have hj := List.mem_range.1 hj
    refine Adds.foldlM _ _ (fun k R => _) ?_
    intro k hk
    have hk := List.mem_range'_1.1 (List.mem_reverse.1 hk)
    obtain ⟨row, e1, e2⟩ := hcc (c - j - 1) (by omega) (m' + 2 - k) (by omega)
    simp only [e1, e2, hsv (j + ((c + 1) * (m' + 1) + 1)) (by omega),
      hyv (j + ((c + 1) * (m' + 1) + 1)) (by omega), bind, Except.bind]
    exact Adds.addAt (by omega) _)
  have A3 := Adds.foldlM (n := m' + 2 + 1) (List.range m') (fun w j =>
      (List.range c).foldlM (fun w k => do
        let wi := (c + 1) * (j + 1) + 1 + k
        let ck ← idx ((List.range (c + 1 - 1)).map fun j => lagrangeCoefficients (p j + 1) 4) k
        let sv ← idx s wi
        let yv ← idx y wi
        (List.range 4).foldlM (fun w l => do
          let cv ← idx ck l
          addAt w (j + l) (cv * sv * yv)) w) w)
    (fun j R => ((List.range c).map fun k => ((List.range 4).map fun l =>
      (lagrangeCoefficients (p k + 1) 4).getD l 0 * s.getD ((c + 1) * (j + 1) + 1 + k) 0 *
        y.getD ((c + 1) * (j + 1) + 1 + k) 0 * R (j + l)).sum).sum) (by
    intro j hj
    have hj := List.mem_range.1 hj
    refine Adds.foldlM _ _ (fun k R => _) ?_
    intro k hk
    have hk := List.mem_range.1 hk
    have hwi : (c + 1) * (j + 1) + 1 + k < N := by
      have : (c + 1) * (j + 1) ≤ (c + 1) * m' := Nat.mul_le_mul_left _ (by omega)
      omega
    simp only [hcb k hk, hsv _ hwi, hyv _ hwi, bind, Except.bind]
    refine Adds.foldlM _ _ (fun l R => _) ?_
    intro l hl
    have hl := List.mem_range.1 hl
    simp only [hcb' k l hl]
    exact Adds.addAt (by omega) _)
  have A4 := Adds.foldlM (n := m' + 2 + 1) (List.range' ((c + 1) * (m' + 2) + 1) t) (fun w j => do
      let sv ← idx s j
      let yv ← idx y j
      addAt w (m' + 2) (sv * yv))
    (fun j R => s.getD j 0 * y.getD j 0 * R (m' + 2)) (by
    intro j hj
    have hj := List.mem_range'_1.1 hj
    simp only [hsv j (by omega), hyv j (by omega), bind, Except.bind]
    exact Adds.addAt (by omega) _)
  -- the coarse samples the accumulation starts from
  have hcnt : (N + (c + 1) - 1) / (c + 1) = m' + 2 + 1 := by
    rw [show N + (c + 1) - 1 = t + (c + 1) * (m' + 2 + 1) by
      rw [Nat.mul_add (c + 1) (m' + 2) 1]; omega, Nat.add_mul_div_left _ _ (by omega),
      Nat.div_eq_of_lt htl]; omega
  have hw0 : List.zipWith (· * ·) (stepBy (c + 1) s) (stepBy (c + 1) y) =
      (List.range (m' + 2 + 1)).map fun k => s.getD (k * (c + 1)) 0 * y.getD (k * (c + 1)) 0 := by
    rw [stepBy_eq _ (by omega), stepBy_eq _ (by omega), hs, hy, hcnt, List.zipWith_map, 
      List.zipWith_self]
  obtain ⟨w, e, hl, hd⟩ := A1.bind (A2.bind (A3.bind A4)) _
    (by rw [hw0]; simp : (List.zipWith (· * ·) (stepBy (c + 1) s) (stepBy (c + 1) y)).length = _)
  refine ⟨w, ?_, hl, fun R => ?_⟩
  · rw [← e]
    unfold weightsChannel
    have u1 : usub N 1 = .ok (N - 1) := usub_ok _ _ (by omega)
    have u2 : usub N t = .ok ((c + 1) * (m' + 2) + 1) := by rw [usub_ok _ _ (by omega)]; congr 1; omega
    have u3 : usub ((c + 1) * (m' + 2) + 1) 1 = .ok ((c + 1) * (m' + 2)) := usub_ok _ _ (by omega)
    have u4 : usub ((c + 1) * (m' + 2)) c = .ok ((c + 1) * (m' + 1) + 1) := by
      rw [usub_ok _ _ (by omega)]; congr 1; omega
    have u5 : usub (m' + 2 + 1) 1 = .ok (m' + 2) := usub_ok _ _ (by omega)
    have u6 : usub (m' + 2) 2 = .ok m' := usub_ok _ _ (by omega)
    have u7 : usub (m' + 2 + 1) 3 = .ok m' := usub_ok _ _ (by omega)
    have u8 : N - ((c + 1) * (m' + 2) + 1) = t := by omega
    have u9 : c + 1 - 1 = c := rfl
    simp only [List.length_map, List.length_range, u9, u1, ht, u2, u3, u4, u5, u6, u7, u8,
      bind, Except.bind]
  · rw [hd]
    have hb : ∀ b r, r < c + 1 → ((c + 1) * b + r) / (c + 1) = b ∧ ((c + 1) * b + r) % (c + 1) = r := by
      intro b r hr
      rw [Nat.mul_add_div (by omega), Nat.div_eq_of_lt hr, Nat.mul_add_mod, Nat.mod_eq_of_lt hr]
      simp
    have hlt : ∀ b r, b < m' + 2 → r < c + 1 → ¬ (c + 1) * (m' + 2) ≤ (c + 1) * b + r := by
      intro b r hb hr
      have : (c + 1) * b ≤ (c + 1) * (m' + 1) := Nat.mul_le_mul_left _ (by omega)
      omega
    have E0 : ∀ b, b < m' + 2 → e2022At p (c + 1) (m' + 2) R ((c + 1) * b) = R b := by
      intro b hb'
      have h := hb b 0 (by omega)
      rw [Nat.add_zero] at h
      unfold e2022At
      rw [if_neg (by simpa using hlt b 0 hb' (by omega)), if_pos h.2, h.1]
    have E1 : ∀ k, e2022At p (c + 1) (m' + 2) R ((c + 1) * (m' + 2) + k) = R (m' + 2) := by
      intro k
      unfold e2022At
      rw [if_pos (by omega)]
    have E2 : ∀ b r, b < m' + 2 → r < c → e2022At p (c + 1) (m' + 2) R ((c + 1) * b + 1 + r) =
        if b = 0 then Spec.through 0 3 R (p r)
        else if b = m' + 1 then Spec.through m' 3 R ((m' : ℝ) + 2 - p (c - r - 1))
        else Spec.through (b - 1) 4 R (b + p r) := by
      intro b r hb' hr
      have h := hb b (1 + r) (by omega)
      rw [← Nat.add_assoc] at h
      have hlt' := hlt b (1 + r) hb' (by omega)
      rw [← Nat.add_assoc] at hlt'
      unfold e2022At
      rw [if_neg hlt', h.1, h.2, if_neg (by omega), show 1 + r - 1 = r by omega,
        show m' + 2 - 1 = m' + 1 by omega, show m' + 2 - 2 = m' by omega,
        show c + 1 - 1 - (1 + r) = c - r - 1 by omega]
      push_cast
      rfl
    -- the coarse samples
    have H0 : dotR R (List.zipWith (· * ·) (stepBy (c + 1) s) (stepBy (c + 1) y)) =
        ∑ k ∈ Finset.range (m' + 2), s.getD ((c + 1) * k) 0 * y.getD ((c + 1) * k) 0 * R k +
        s.getD ((c + 1) * (m' + 2)) 0 * y.getD ((c + 1) * (m' + 2)) 0 * R (m' + 2) := by
      rw [hw0, dotR_eq, List.length_map, List.length_range, ← Finset.sum_range_succ
        (fun k => s.getD ((c + 1) * k) 0 * y.getD ((c + 1) * k) 0 * R k)]
      refine Finset.sum_congr rfl fun k hk => ?_
      rw [List.getD_eq_getElem _ _ (by simpa using hk)]
      simp [mul_comm]
    have H1 : ∀ j, ((List.range 3).map fun k => (lagrangeCoefficients (p j) 3).getD k 0 *
        s.getD (j + 1) 0 * y.getD (j + 1) 0 * R k).sum =
        s.getD (1 + j) 0 * y.getD (1 + j) 0 * Spec.through 0 3 R (p j) := by
      intro j
      have := lagrange_through 0 3 (by omega) R (p j)
      simp only [Nat.cast_zero, zero_add] at this
      rw [list_sum_range, ← this, Finset.mul_sum, Nat.add_comm j 1]
      refine Finset.sum_congr rfl fun k _ => by ring
    have H2 : ∀ j, ((List.range' m' 3).reverse.map fun k =>
        (lagrangeCoefficients (p (c - j - 1)) 3).getD (m' + 2 - k) 0 *
        s.getD (j + ((c + 1) * (m' + 1) + 1)) 0 * y.getD (j + ((c + 1) * (m' + 1) + 1)) 0 * R k).sum =
        s.getD ((c + 1) * (m' + 1) + 1 + j) 0 * y.getD ((c + 1) * (m' + 1) + 1 + j) 0 *
          Spec.through m' 3 R ((m' : ℝ) + 2 - p (c - j - 1)) := by
      intro j
      have h := lagrange_through_rev m' 3 (by omega) R (p (c - j - 1))
      rw [show (m' : ℝ) + ((3 : ℕ) - 1) - p (c - j - 1) = (m' : ℝ) + 2 - p (c - j - 1) by
        push_cast; ring] at h
      rw [← h, show List.range' m' 3 = [m', m' + 1, m' + 2] from rfl,
        Nat.add_comm j ((c + 1) * (m' + 1) + 1)]
      simp only [List.reverse_cons, List.reverse_nil, List.nil_append, List.cons_append,
        List.map_cons, List.map_nil, List.sum_cons, List.sum_nil, Finset.sum_range_succ,
        Finset.sum_range_zero, Nat.sub_self, show m' + 2 - (m' + 1) = 1 by omega,
        show m' + 2 - m' = 2 by omega]
      simp only [show 3 - 1 - 0 = 2 by omega, show 3 - 1 - 1 = 1 by omega, show 3 - 1 - 2 = 0 by omega,
        Nat.add_zero]
      ring
    have H3 : ∀ j k, ((List.range 4).map fun l => (lagrangeCoefficients (p k + 1) 4).getD l 0 *
        s.getD ((c + 1) * (j + 1) + 1 + k) 0 * y.getD ((c + 1) * (j + 1) + 1 + k) 0 * R (j + l)).sum =
        s.getD ((c + 1) * (j + 1) + 1 + k) 0 * y.getD ((c + 1) * (j + 1) + 1 + k) 0 *
          Spec.through j 4 R (((j + 1 : ℕ) : ℝ) + p k) := by
      intro j k
      have h := lagrange_through j 4 (by omega) R (p k + 1)
      rw [show (j : ℝ) + (p k + 1) = ((j + 1 : ℕ) : ℝ) + p k by push_cast; ring] at h
      rw [list_sum_range, ← h, Finset.mul_sum]
      refine Finset.sum_congr rfl fun l _ => by ring
    have H4 : ((List.range' ((c + 1) * (m' + 2) + 1) t).map fun j =>
        s.getD j 0 * y.getD j 0 * R (m' + 2)).sum = ∑ k ∈ Finset.range t,
          s.getD ((c + 1) * (m' + 2) + (k + 1)) 0 * y.getD ((c + 1) * (m' + 2) + (k + 1)) 0 *
            R (m' + 2) := by
      rw [List.range'_eq_map_range, List.map_map, ← list_sum_range]
      congr 1
      refine List.map_congr_left fun k _ => ?_
      simp only [Function.comp, show (c + 1) * (m' + 2) + 1 + k = (c + 1) * (m' + 2) + (k + 1) by omega]
    rw [H0]
    dsimp only
    rw [H4]
    simp only [H1, H2, H3, list_sum_range]
    have X1 : ∀ G : ℕ → ℝ, ∑ b ∈ Finset.range (m' + 2), G b =
        G 0 + ∑ b ∈ Finset.range m', G (b + 1) + G (m' + 1) := by
      intro G
      rw [Finset.sum_range_succ, Finset.sum_range_succ']; ring
    have X2 : ∀ F : ℕ → ℝ, ∑ i ∈ Finset.range N, F i =
        ∑ b ∈ Finset.range (m' + 2), F ((c + 1) * b) +
        (∑ r ∈ Finset.range c, F ((c + 1) * 0 + 1 + r) +
          ∑ b ∈ Finset.range m', ∑ r ∈ Finset.range c, F ((c + 1) * (b + 1) + 1 + r) +
          ∑ r ∈ Finset.range c, F ((c + 1) * (m' + 1) + 1 + r)) +
        (∑ k ∈ Finset.range t, F ((c + 1) * (m' + 2) + (k + 1)) + F ((c + 1) * (m' + 2) + 0)) := by
      intro F
      rw [show N = (c + 1) * (m' + 2) + (t + 1) by omega, Finset.sum_range_add F, sum_blocks,
        Finset.sum_add_distrib, X1 (fun b => ∑ r ∈ Finset.range c, F ((c + 1) * b + 1 + r)),
        Finset.sum_range_succ' _ t]
    rw [X2]
    have Y0 : ∑ b ∈ Finset.range (m' + 2), s.getD ((c + 1) * b) 0 * y.getD ((c + 1) * b) 0 *
        e2022At p (c + 1) (m' + 2) R ((c + 1) * b) = ∑ b ∈ Finset.range (m' + 2),
          s.getD ((c + 1) * b) 0 * y.getD ((c + 1) * b) 0 * R b :=
      Finset.sum_congr rfl fun b hb => by rw [E0 b (Finset.mem_range.1 hb)]
    have Y1 : ∑ r ∈ Finset.range c, s.getD ((c + 1) * 0 + 1 + r) 0 * y.getD ((c + 1) * 0 + 1 + r) 0 *
        e2022At p (c + 1) (m' + 2) R ((c + 1) * 0 + 1 + r) = ∑ r ∈ Finset.range c,
          s.getD (1 + r) 0 * y.getD (1 + r) 0 * Spec.through 0 3 R (p r) :=
      Finset.sum_congr rfl fun r hr => by
        rw [E2 0 r (by omega) (Finset.mem_range.1 hr), if_pos rfl, Nat.mul_zero, Nat.zero_add]
    have Y2 : ∑ r ∈ Finset.range c, s.getD ((c + 1) * (m' + 1) + 1 + r) 0 *
        y.getD ((c + 1) * (m' + 1) + 1 + r) 0 *
        e2022At p (c + 1) (m' + 2) R ((c + 1) * (m' + 1) + 1 + r) = ∑ r ∈ Finset.range c,
          s.getD ((c + 1) * (m' + 1) + 1 + r) 0 * y.getD ((c + 1) * (m' + 1) + 1 + r) 0 *
            Spec.through m' 3 R ((m' : ℝ) + 2 - p (c - r - 1)) :=
      Finset.sum_congr rfl fun r hr => by
        rw [E2 (m' + 1) r (by omega) (Finset.mem_range.1 hr), if_neg (by omega), if_pos rfl]
    have Y3 : ∑ b ∈ Finset.range m', ∑ r ∈ Finset.range c, s.getD ((c + 1) * (b + 1) + 1 + r) 0 *
        y.getD ((c + 1) * (b + 1) + 1 + r) 0 *
        e2022At p (c + 1) (m' + 2) R ((c + 1) * (b + 1) + 1 + r) = ∑ b ∈ Finset.range m',
          ∑ r ∈ Finset.range c, s.getD ((c + 1) * (b + 1) + 1 + r) 0 *
          y.getD ((c + 1) * (b + 1) + 1 + r) 0 * Spec.through b 4 R (((b + 1 : ℕ) : ℝ) + p r) :=
      Finset.sum_congr rfl fun b hb => Finset.sum_congr rfl fun r hr => by
        have hb := Finset.mem_range.1 hb
        rw [E2 (b + 1) r (by omega) (Finset.mem_range.1 hr), if_neg (by omega), if_neg (by omega),
          Nat.add_sub_cancel]
    have Y4 : ∑ k ∈ Finset.range t, s.getD ((c + 1) * (m' + 2) + (k + 1)) 0 *
        y.getD ((c + 1) * (m' + 2) + (k + 1)) 0 *
        e2022At p (c + 1) (m' + 2) R ((c + 1) * (m' + 2) + (k + 1)) = ∑ k ∈ Finset.range t,
          s.getD ((c + 1) * (m' + 2) + (k + 1)) 0 * y.getD ((c + 1) * (m' + 2) + (k + 1)) 0 *
            R (m' + 2) :=
      Finset.sum_congr rfl fun k _ => by rw [E1]
    have Y5 := E1 0
    rw [Nat.add_zero] at Y5
    rw [Y0, Y1, Y2, Y3, Y4, Nat.add_zero, Y5]
    ring

end CS

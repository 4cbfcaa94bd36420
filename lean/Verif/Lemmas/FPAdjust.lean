import Verif.Lemmas.FPWeights
import Verif.Props.ToXyz

/-! Scaling, folding and summing the weights in floating point. -/

namespace CS

section
variable {f : Fmt} [Libm f]

/-- `100 / D` from the float sum -/
theorem inv_err (hf : Std f) {dh : FP f} {D A κ : ℝ} (hdf : dh.isFinite = true)
    (hd : |(dh.val : ℝ) - D| ≤ 96600 * f.u * A) (hD : D ≤ 7.4 * A) (hA : 1 / 2 ^ 32 ≤ A) (hA' : A ≤ 2 ^ 46)
    (hκ0 : 0 < κ) (hκ : A ≤ κ * D) (hκ' : κ ≤ 2 ^ 20) (hκu : κ * 10 ^ 6 * f.u ≤ 1) :
    (Flt.lit 100.0 / dh).isFinite = true ∧
    |((Flt.lit 100.0 / dh).val : ℝ) - 100 / D| ≤ 1.08e5 * κ * f.u * (100 / D) := by
  obtain ⟨u0, u1, u2⟩ := hf.u_bounds
  have A0 : 0 < A := lt_of_lt_of_le (by positivity) hA
  obtain ⟨l1, l2⟩ : (Flt.lit 100.0 : FP f).isFinite = true ∧ (Flt.lit 100.0 : FP f).val = 100 :=
    ⟨lit_fin hf 100 _, by have := lit_val hf 100 (100.0 : ℚ); exact_mod_cast this⟩
  have D0 : 0 < D := by
    by_contra hc
    have := mul_nonpos_of_nonneg_of_nonpos hκ0.le (not_lt.1 hc)
    linarith
  have r1 : κ * f.u ≤ 1 / 10 ^ 6 := by
    rw [le_div_iff₀ (by positivity)]; linarith
  have uA : f.u * A ≤ κ * f.u * D := by
    have := mul_le_mul_of_nonneg_left hκ u0.le
    linarith
  have uA' : f.u * A ≤ 1 / 10 ^ 6 * D := uA.trans (mul_le_mul_of_nonneg_right r1 D0.le)
  have hd1 : |(dh.val : ℝ) - D| ≤ 0.0966 * D := by
    have : 96600 * f.u * A ≤ 0.0966 * D := by norm_num at uA' ⊢; linarith
    exact hd.trans this
  obtain ⟨hd2, hd3⟩ := abs_le.1 hd1
  have dlo : 0.9034 * D ≤ dh.val := by norm_num at hd2 ⊢; linarith
  have dhi : (dh.val : ℝ) ≤ 1.0966 * D := by norm_num at hd3 ⊢; linarith
  have dpos : (0:ℝ) < dh.val := lt_of_lt_of_le (by positivity) dlo
  have dposq : 0 < dh.val := by exact_mod_cast dpos
  have Dlo : 1 / 2 ^ 52 ≤ D := by
    have h1 : A ≤ 2 ^ 20 * D := hκ.trans (mul_le_mul_of_nonneg_right hκ' D0.le)
    have : (1:ℝ) / 2 ^ 32 ≤ 2 ^ 20 * D := hA.trans h1
    norm_num at this ⊢; linarith
  have Dhi : D ≤ 2 ^ 49 := by norm_num at hA' hD ⊢; linarith
  set q : ℝ := 100 / dh.val with hq
  have q0 : 0 < q := by positivity
  have qhi : q ≤ 2 ^ 60 := by
    rw [hq, div_le_iff₀ dpos]
    norm_num at Dlo dlo ⊢; linarith
  have qlo : 1 / 2 ^ 48 ≤ q := by
    rw [hq, le_div_iff₀ dpos]
    norm_num at Dhi dhi ⊢; linarith
  have qr : |(Flt.lit 100.0 : FP f).val / dh.val| ≤ 2 ^ 60 := by
    rw [l2, abs_of_nonneg (by positivity)]
    have : ((100 / dh.val : ℚ) : ℝ) ≤ 2 ^ 60 := by push_cast; exact qhi
    exact_mod_cast this
  obtain ⟨k1, k2⟩ := FP.div_err l1 hdf dposq.ne' (pow_le_emax hf.wide (qr.trans (by norm_num)))
  have k3 : |((Flt.lit 100.0 / dh).val : ℝ) - q| ≤ q * f.u + f.eta := by
    have := (Rat.cast_le (K := ℝ)).2 k2
    rw [Rat.cast_abs, Rat.cast_sub, l2, abs_of_nonneg (show (0:ℚ) ≤ 100 / dh.val by positivity)] at this
    push_cast at this
    exact this
  have k4 : |((Flt.lit 100.0 / dh).val : ℝ) - q| ≤ 1.0001 * (q * f.u) := by
    refine k3.trans ?_
    have : (f.eta : ℝ) ≤ 0.0001 * (q * f.u) := by
      refine u2.trans ?_
      have h1 : (1:ℝ) / 2 ^ 124 ≤ 0.0001 * q := by
        have := mul_le_mul_of_nonneg_left qlo (show (0:ℝ) ≤ 0.0001 by norm_num)
        refine le_trans ?_ this
        norm_num
      have h2 := mul_le_mul_of_nonneg_right h1 u0.le
      calc (f.u : ℝ) / 2 ^ 124 = 1 / 2 ^ 124 * f.u := by ring
        _ ≤ 0.0001 * q * f.u := h2
        _ = _ := by ring
    norm_num at this ⊢; linarith
  generalize Flt.lit 100.0 / dh = kh at *
  refine ⟨k1, ?_⟩
  set K : ℝ := 100 / D with hK
  have K0 : 0 < K := by positivity
  have hqK : q ≤ 1.107 * K := by
    rw [hq, hK, div_le_iff₀ dpos, mul_div_assoc', div_mul_eq_mul_div, le_div_iff₀ D0]
    norm_num at dlo ⊢; linarith
  have hdiff : |q - K| ≤ 106937 * (κ * f.u) * K := by
    have e : q - K = (D - dh.val) / dh.val * K := by
      rw [hq, hK]; field_simp
    rw [e, abs_mul, abs_of_pos K0, abs_div, abs_of_pos dpos, abs_sub_comm]
    refine mul_le_mul_of_nonneg_right ?_ K0.le
    rw [div_le_iff₀ dpos]
    refine hd.trans ?_
    have h1 : κ * f.u * (0.9034 * D) ≤ κ * f.u * dh.val := mul_le_mul_of_nonneg_left dlo (by positivity)
    have h3 : 0 ≤ κ * f.u * D := by positivity
    calc 96600 * f.u * A = 96600 * (f.u * A) := by ring
      _ ≤ 96600 * (κ * f.u * D) := mul_le_mul_of_nonneg_left uA (by norm_num)
      _ ≤ 106937 * (κ * f.u * (0.9034 * D)) := by norm_num; linarith
      _ ≤ 106937 * (κ * f.u * dh.val) := mul_le_mul_of_nonneg_left h1 (by norm_num)
      _ = _ := by ring
  have κlo : 0.13 ≤ κ := by
    have h1 : A ≤ κ * (7.4 * A) := hκ.trans (mul_le_mul_of_nonneg_left hD hκ0.le)
    have h2 : 1 * A ≤ (κ * 7.4) * A := by linarith
    have := le_of_mul_le_mul_right h2 A0
    norm_num at this ⊢; linarith
  have huκ : f.u ≤ 7.7 * (κ * f.u) := by
    have := mul_le_mul_of_nonneg_right κlo u0.le
    norm_num at this ⊢; linarith
  have h5 : 1.0001 * (q * f.u) ≤ 9 * (κ * f.u) * K := by
    have h1 := mul_le_mul hqK huκ u0.le (by positivity)
    have h2 : 0 ≤ κ * f.u * K := by positivity
    norm_num at h1 ⊢; nlinarith
  have t := abs_add_le ((kh.val : ℝ) - q) (q - K)
  rw [sub_add_sub_cancel] at t
  have h2 : 0 ≤ κ * f.u * K := by positivity
  norm_num at h5 hdiff ⊢
  linarith

/-- summing floats: the rounding of the additions -/
theorem fsum_core (hf : Std f) {l : List (FP f)} {L SA SE : ℝ} (hfin : ∀ b ∈ l, b.isFinite = true)
    (h1 : (((l.map fun b => |b.val|).sum : ℚ) : ℝ) ≤ SA) (h2 : |(((l.map FP.val).sum : ℚ) : ℝ) - L| ≤ SE)
    (hSA : SA ≤ 2 ^ 92) (n : ℕ) (hn : l.length ≤ n) (hn' : n ≤ 2 ^ 10) :
    (fsum l).isFinite = true ∧ |((fsum l).val : ℝ) - L| ≤ SE + 1.001 * (n * f.u) * SA := by
  obtain ⟨u0, u1, -⟩ := hf.u_bounds
  have hlr : (l.length : ℝ) ≤ n := by exact_mod_cast hn
  have hlq : (l.length : ℚ) ≤ 2 ^ 10 := by exact_mod_cast hn.trans hn'
  have hnu : (l.length : ℚ) * f.u ≤ 1 / 2 ^ 14 := by
    have := mul_le_mul hlq hf.hu f.u_pos.le (by positivity)
    norm_num at this ⊢
    exact this
  have hg := grow_le f.u_pos.le l.length (hnu.trans (by norm_num))
  have hg2 : (1 + f.u) ^ l.length ≤ 2 := by
    have h1 : ((l.length : ℚ) * f.u) ^ 2 ≤ (1 / 2 ^ 14) ^ 2 :=
      pow_le_pow_left₀ (mul_nonneg (Nat.cast_nonneg _) f.u_pos.le) hnu 2
    norm_num at h1 hnu
    linarith
  have hS0 : 0 ≤ (l.map fun b => |b.val|).sum := List.sum_nonneg (by
      intro z hz; obtain ⟨w, -, rfl⟩ := List.mem_map.1 hz; exact abs_nonneg _)
  have hS0r : (0:ℝ) ≤ ((l.map fun b => |b.val|).sum : ℚ) := by exact_mod_cast hS0
  have hrange : (1 + f.u) ^ (0 + l.length) * (0 + (l.map fun b => |b.val|).sum) ≤ 2 ^ f.emax := by
    rw [zero_add, zero_add]
    have h2 : (l.map fun b => |b.val|).sum ≤ 2 ^ 92 := by
      have := h1.trans hSA
      qcast this
    have h3 := mul_le_mul hg2 h2 hS0 (by norm_num)
    have b := hf.wide.hmax
    have c : (2:ℚ) * 2 ^ 92 ≤ 2 ^ 126 := by
      rw [← pow_succ']; exact pow_le_pow_right₀ (by norm_num) (by norm_num)
    have hp : (0:ℚ) < 2 ^ f.emax := by positivity
    generalize (2:ℚ) ^ f.emax = z at *
    generalize (2:ℚ) ^ 126 = z' at *
    generalize (2:ℚ) ^ 92 = z'' at *
    linarith
  have hz : (Flt.zero : FP f).isFinite = true ∧ (Flt.zero : FP f).val = 0 := by
    show (FP.lit 0 : FP f).isFinite = true ∧ (FP.lit 0 : FP f).val = 0
    rw [FP.lit_zero]
    exact ⟨rfl, rfl⟩
  have n0 : Near (Flt.zero : FP f) 0 0 0 0 := ⟨hz.1, by simp, by rw [hz.2]; simp⟩
  have nr := Near.foldl l Flt.zero 0 0 0 n0 hfin hrange
  refine ⟨nr.fin, ?_⟩
  have he := nr.err
  simp only [zero_add, Nat.cast_zero, zero_mul, add_zero] at he
  have hg3 : (1 + f.u) ^ l.length - 1 ≤ 1.001 * (l.length * f.u) := by
    have h0 : 0 ≤ (l.length : ℚ) * f.u := mul_nonneg (Nat.cast_nonneg _) f.u_pos.le
    have h1 : ((l.length : ℚ) * f.u) ^ 2 ≤ (l.length * f.u) * (1 / 2 ^ 14) := by
      rw [pow_two]; exact mul_le_mul_of_nonneg_left hnu h0
    norm_num at h1 ⊢
    linarith
  have he' : |(fsum l).val - (l.map FP.val).sum| ≤ 1.001 * (l.length * f.u) * (l.map fun b => |b.val|).sum :=
    he.trans (mul_le_mul_of_nonneg_right hg3 hS0)
  have her : |((fsum l).val : ℝ) - ((l.map FP.val).sum : ℚ)| ≤
      1.001 * (l.length * f.u) * ((l.map fun b => |b.val|).sum : ℚ) := by
    have := (Rat.cast_le (K := ℝ)).2 he'
    rw [Rat.cast_abs, Rat.cast_sub] at this
    refine this.trans (le_of_eq ?_)
    push_cast
    norm_num
  have t := abs_add_le (((fsum l).val : ℝ) - ((l.map FP.val).sum : ℚ)) (((l.map FP.val).sum : ℚ) - L)
  rw [sub_add_sub_cancel] at t
  have e1 : 1.001 * ((l.length : ℝ) * f.u) * (((l.map fun b => |b.val|).sum : ℚ) : ℝ) ≤ 1.001 * (n * f.u) * SA := by
    gcongr
  linarith

/-- the sum of the cells of an accumulation, which hold `N` terms together -/
theorem Follows.fsum (hf : Std f) {V M E : ℝ} {t n : ℕ} (hV : Scale V) (hM : 0 ≤ M) (hE : 0 ≤ E) {c : List ℕ}
    {w : List (FP f)} {W : List ℝ} (h : Follows V M E t n c w W) (hc : ∀ z ∈ c, z ≤ t) (hn : n ≤ 2 ^ 10)
    (hlim : (c.sum : ℝ) * (M + E / 2 ^ 24) ≤ 2 ^ 30) :
    (CS.fsum w).isFinite = true ∧ |((CS.fsum w).val : ℝ) - W.sum| ≤
      c.sum * ((E + 1.001 * n * (M + E / 2 ^ 24)) * (f.u * V)) := by
  obtain ⟨u0, u1, -⟩ := hf.u_bounds
  have hp := hV.pos
  have main : ∀ (n : ℕ) (c : List ℕ) (w : List (FP f)) (W : List ℝ), Follows V M E t n c w W → (∀ z ∈ c, z ≤ t) →
      (∀ b ∈ w, b.isFinite = true) ∧
      (((w.map fun b => |b.val|).sum : ℚ) : ℝ) ≤ c.sum * ((M + E / 2 ^ 24) * V) ∧
      |(((w.map FP.val).sum : ℚ) : ℝ) - W.sum| ≤ c.sum * (E * (f.u * V)) := by
    intro n
    induction n with
    | zero =>
      intro c w W h _
      obtain rfl := List.length_eq_zero_iff.1 h.lw
      obtain rfl := List.length_eq_zero_iff.1 h.lW
      obtain rfl := List.length_eq_zero_iff.1 h.lc
      simp
    | succ n ih =>
      intro c w W h hc
      obtain ⟨z, c, rfl⟩ := List.exists_cons_of_length_eq_add_one h.lc
      obtain ⟨a, w, rfl⟩ := List.exists_cons_of_length_eq_add_one h.lw
      obtain ⟨X, W, rfl⟩ := List.exists_cons_of_length_eq_add_one h.lW
      have h' : Follows V M E t n c w W := by
        have l1 := h.lc; have l2 := h.lw; have l3 := h.lW
        simp only [List.length_cons, Nat.add_right_cancel_iff] at l1 l2 l3
        refine ⟨l1, l2, l3, fun k hk hle => ?_⟩
        have := h.cell (k + 1) (by omega) (by simpa using hle)
        simpa using this
      obtain ⟨i0, i1, i2⟩ := ih c w W h' fun y hy => hc y (List.mem_cons_of_mem _ hy)
      have h0 := h.cell 0 (by omega) (hc z (by simp))
      simp only [List.getElem_cons_zero] at h0
      have z0 : (0:ℝ) ≤ z := Nat.cast_nonneg _
      have ha : |(a.val : ℝ)| ≤ z * ((M + E / 2 ^ 24) * V) := by
        have t := abs_add_le ((a.val : ℝ) - X) X
        rw [sub_add_cancel] at t
        have : E * z * (f.u * V) ≤ E * z * (1 / 2 ^ 24 * V) :=
          mul_le_mul_of_nonneg_left (mul_le_mul_of_nonneg_right u1 hp.le) (by positivity)
        linarith [h0.err, h0.abs]
      simp only [List.map_cons, List.sum_cons, Rat.cast_add, Rat.cast_abs, Nat.cast_add]
      refine ⟨?_, by linarith, ?_⟩
      · intro b hb
        rcases List.mem_cons.1 hb with rfl | hb
        · exact h0.fin
        · exact i0 b hb
      · have t := abs_add_le ((a.val : ℝ) - X) (((w.map FP.val).sum : ℚ) - W.sum)
        have e : (a.val : ℝ) - X + (((w.map FP.val).sum : ℚ) - W.sum) =
          a.val + ((w.map FP.val).sum : ℚ) - (X + W.sum) := by ring
        rw [e] at t
        have := h0.err
        linarith
  obtain ⟨m0, m1, m2⟩ := main n c w W h hc
  have hlim' : (c.sum : ℝ) * ((M + E / 2 ^ 24) * V) ≤ 2 ^ 92 := by
    have := mul_le_mul hlim hV.hi hp.le (by positivity)
    rw [← mul_assoc]
    exact this.trans (by norm_num)
  obtain ⟨q1, q2⟩ := fsum_core hf m0 m1 m2 hlim' n h.lw.le hn
  refine ⟨q1, q2.trans (le_of_eq ?_)⟩
  ring

theorem Tr.rescale {V c M k : ℝ} (hc : 0 < c) {a : FP f} {X : ℝ} (h : Tr V a X M k) :
    Tr (c * V) a X (M / c) (k / c) := by
  refine ⟨h.fin, h.abs.trans (le_of_eq ?_), h.err.trans (le_of_eq ?_)⟩
  · field_simp
  · field_simp

/-- how many terms each cell holds after folding `A` cells at the start and `B` at the end -/
def foldCounts (A B : ℕ) : List ℕ :=
  let c := (List.range A).foldl (fun c _ => bump c A) (List.replicate 43 1)
  let c := (List.range B).foldl (fun c _ => bump c (43 - B - 1)) c
  (c.take (43 - B)).drop A

theorem foldl_bump (n i : ℕ) (c : List ℕ) :
    (List.range n).foldl (fun c _ => bump c i) c = c.set i (c.getD i 0 + n) := by
  induction n with
  | zero =>
    rcases lt_or_ge i c.length with h | h
    · simp [List.getD_eq_getElem?_getD, List.getElem?_eq_getElem h]
    · simp [List.set_eq_of_length_le h]
  | succ n ih =>
    rw [List.range_succ, List.foldl_append, ih]
    simp only [List.foldl_cons, List.foldl_nil, bump, List.set_set]
    rcases lt_or_ge i c.length with h | h
    · simp [List.getD_eq_getElem?_getD, List.getElem?_set, h, Nat.add_assoc]
    · rw [List.set_eq_of_length_le h, List.set_eq_of_length_le h]

/-- the same in one step -/
def foldCounts' (A B : ℕ) : List ℕ :=
  let c := (List.replicate 43 1).set A (1 + A)
  let c := c.set (43 - B - 1) (c.getD (43 - B - 1) 0 + B)
  (c.take (43 - B)).drop A

theorem foldCounts_eq (A B : ℕ) (h : A < 43) : foldCounts A B = foldCounts' A B := by
  unfold foldCounts foldCounts'
  simp only [foldl_bump]
  rw [show (List.replicate 43 1).getD A 0 = 1 by
    rw [List.getD_eq_getElem?_getD, List.getElem?_replicate, if_pos h]; rfl]

theorem foldCounts_ok' : ∀ A < 43, ∀ B < 43, A + B < 43 → (foldCounts' A B).sum = 43 ∧
    (foldCounts' A B).all (fun z => Nat.ble 1 z && Nat.ble z 43) = true := by decide +kernel

theorem foldCounts_ok (A : ℕ) (hA : A < 43) (B : ℕ) (hB : B < 43) (h : A + B < 43) :
    (foldCounts A B).sum = 43 ∧ ∀ z ∈ foldCounts A B, 1 ≤ z ∧ z ≤ 43 := by
  obtain ⟨a, b⟩ := foldCounts_ok' A hA B hB h
  rw [foldCounts_eq A B hA]
  refine ⟨a, fun z hz => ?_⟩
  have := List.all_eq_true.1 b z hz
  rw [Bool.and_eq_true] at this
  exact ⟨Nat.le_of_ble_eq_true this.1, Nat.le_of_ble_eq_true this.2⟩

/-- folding -/
theorem adjust_follows (hf : Std f) {V M k E : ℝ} (hV : Scale V) (hb : Budget M k E 43) {w : List (FP f)}
    {W : List ℝ} (h : List.Forall₂ (fun a X => Tr V a X M k) w W) (hl : W.length = 43) (A B : ℕ) (hAB : A + B < 43) :
    RS (Follows V M E 43 (43 - A - B) (foldCounts A B)) (adjustChannel w A B) (adjustChannel W A B) := by
  have h0 := Follows.init hV hb h hl
  have hlw : w.length = 43 := by rw [h.length_eq]; exact hl
  let R (T : ℕ → Prop) (c : List ℕ) (a : List (FP f)) (b : List ℝ) : Prop :=
    Follows V M E 43 43 c a b ∧ ∀ p, ¬ T p → a[p]? = w[p]? ∧ b[p]? = W[p]?
  have read : ∀ (T : ℕ → Prop) c a b, R T c a b → ∀ i, i < 43 → ¬ T i → RS (fun x X => Tr V x X M k) (idx a i) (idx b i) := by
    intro T c a b hR i hi hT
    obtain ⟨e1, e2⟩ := hR.2 i hT
    unfold idx
    rw [e1, e2]
    exact RS.idx h i (by omega)
  have put : ∀ (T : ℕ → Prop) c a b, R T c a b → ∀ i, i < 43 → T i → ∀ x X, Tr V x X M k →
      RS (R T (bump c i)) (addAt a i x) (addAt b i X) := by
    intro T c a b hR i hi hT x X hx
    obtain ⟨a', b', e1, e2, hF⟩ := hR.1.addAt hf hV hb hi hx
    refine ⟨a', b', e1, e2, hF, fun p hp => ?_⟩
    have hne : i ≠ p := fun e => hp (e ▸ hT)
    have la := hR.1.lw
    have lb := hR.1.lW
    unfold addAt at e1 e2
    rw [idx_ok _ _ (by omega)] at e1 e2
    cases e1
    cases e2
    rw [List.getElem?_set_ne hne, List.getElem?_set_ne hne]
    exact hR.2 p hp
  unfold adjustChannel
  refine RS.bind (R := R (fun p => p = A) _) (RS.foldlM (fun c _ => bump c A) _ ?_ _ _ _ ⟨h0, fun p _ => ⟨rfl, rfl⟩⟩) ?_
  · intro i hi c a b hR
    have hi := List.mem_range.1 hi
    refine RS.bind (read _ _ _ _ hR i (by omega) (by omega)) fun x X hx => ?_
    exact put _ _ _ _ hR A (by omega) rfl x X hx
  intro w1 W1 h1
  have l1 := h1.1.lw
  have l2 := h1.1.lW
  dsimp only
  rw [l1, l2]
  refine RS.bind (R := R (fun p => p = A ∨ p = 43 - B - 1) _) (RS.foldlM (fun c _ => bump c (43 - B - 1)) _ ?_ _ _ _
    ⟨h1.1, fun p hp => h1.2 p fun e => hp (Or.inl e)⟩) ?_
  · intro i hi c a b hR
    have hi := List.mem_range.1 hi
    refine RS.bind (RS.usub (usub_ok 43 i (by omega))) ?_
    rintro _ _ ⟨rfl, rfl⟩
    refine RS.bind (RS.usub (usub_ok (43 - i) 1 (by omega))) ?_
    rintro _ _ ⟨rfl, rfl⟩
    refine RS.bind (RS.usub (usub_ok 43 B (by omega))) ?_
    rintro _ _ ⟨rfl, rfl⟩
    refine RS.bind (RS.usub (usub_ok (43 - B) 1 (by omega))) ?_
    rintro _ _ ⟨rfl, rfl⟩
    refine RS.bind (read _ _ _ _ hR (43 - i - 1) (by omega) (by omega)) fun x X hx => ?_
    exact put _ _ _ _ hR (43 - B - 1) (by omega) (Or.inr rfl) x X hx
  intro w2 W2 h2
  refine RS.bind (RS.usub (usub_ok 43 B (by omega))) ?_
  rintro _ _ ⟨rfl, rfl⟩
  rw [if_pos (by omega), if_pos (by omega)]
  refine ⟨_, _, rfl, rfl, ?_⟩
  have hF := h2.1
  have f1 := hF.lc; have f2 := hF.lw; have f3 := hF.lW
  refine ⟨by simp only [foldCounts, List.length_drop, List.length_take]; omega, by simp; omega, by simp; omega, ?_⟩
  intro j hj hle
  have := hF.cell (A + j) (by omega) (by simpa [foldCounts] using hle)
  simpa [foldCounts] using this

/-- times the samples -/
theorem Follows.mul (hf : Std f) {V Vs M E E' : ℝ} {t n : ℕ} (hV : 0 < V) (hVs : 0 < Vs) (hS : Scale (V * Vs))
    (hM : 0 ≤ M) (hE : 0 ≤ E) (hMt : M * t ≤ 10 ^ 4) (hEt : E * t ≤ 9 * 10 ^ 5)
    (hE' : (4 * M + E + 4 * E / 2 ^ 24) * (1 + 1 / 10 ^ 7) + M + 1 / 10 ^ 9 ≤ E') {c : List ℕ}
    {w sp : List (FP f)} {W SP : List ℝ} (h : Follows V M E t n c w W)
    (hs : List.Forall₂ (fun a X => Tr Vs a X 1 4) sp SP) (hl : SP.length = n) (hc : ∀ z ∈ c, 1 ≤ z ∧ z ≤ t) :
    Follows (V * Vs) M E' t n c (List.zipWith (· * ·) w sp) (List.zipWith (· * ·) W SP) := by
  have l1 := h.lw; have l2 := h.lW; have l3 := h.lc
  have l4 : sp.length = n := by rw [hs.length_eq]; exact hl
  refine ⟨l3, by simp; omega, by simp; omega, fun k hk hle => ?_⟩
  have h1 := h.cell k hk hle
  have h2 := (List.forall₂_iff_get.1 hs).2 k (by omega) (by omega)
  obtain ⟨c1, c2⟩ := hc _ (List.getElem_mem (show k < c.length by omega))
  have z1 : (1:ℝ) ≤ ((c[k] : ℕ) : ℝ) := by exact_mod_cast c1
  have z2 : ((c[k] : ℕ) : ℝ) ≤ t := by exact_mod_cast c2
  rw [List.getElem_zipWith, List.getElem_zipWith]
  generalize ((c[k] : ℕ) : ℝ) = z at *
  have m1 : M * z ≤ M * t := mul_le_mul_of_nonneg_left z2 hM
  have m2 : E * z ≤ E * t := mul_le_mul_of_nonneg_left z2 hE
  have m3 : 0 ≤ M * z := by positivity
  have m4 : 0 ≤ E * z := by positivity
  have t1 := Tr.mul hf hV hVs hS h1 h2 (K := E' * z) m4 (by norm_num) m3 (by norm_num)
    (by norm_num at hMt ⊢; linarith) (by norm_num at hMt hEt ⊢; linarith) (by
      unfold rnd
      have := mul_le_mul_of_nonneg_right hE' (show 0 ≤ z by linarith)
      norm_num at this ⊢
      linarith)
  rw [mul_one] at t1
  exact t1

set_option maxHeartbeats 800000 in
/-- one channel, from its unscaled weights to the sum: the floats against an exact run with the same scaling -/
theorem channel_sum (hf : Std f) {V Vs : ℝ} {kh : FP f} (hk : kh.isFinite = true) (hk0 : (0:ℝ) < kh.val)
    (hV : 0 < V) (hVs : 0 < Vs) (S1 : Scale (V * kh.val)) (S2 : Scale (V * kh.val * Vs)) {w sp : List (FP f)}
    {W SP : List ℝ} (h : List.Forall₂ (fun a X => Tr V a X 1.12 14722) w W) (hl : W.length = 43) (A B : ℕ)
    (hAB : A + B < 43) (hs : List.Forall₂ (fun a X => Tr Vs a X 1 4) sp SP) (hm : SP.length = 43 - A - B) :
    ∃ o O, adjustChannel (w.map (· * kh)) A B = .ok o ∧ adjustChannel (W.map (· * (kh.val : ℝ))) A B = .ok O ∧
      (dotSum o sp).isFinite = true ∧
      |((dotSum o sp).val : ℝ) - dotSum O SP| ≤ 637600 * (f.u * (V * kh.val * Vs)) := by
  obtain ⟨u0, u1, -⟩ := hf.u_bounds
  have hkt : Tr (kh.val : ℝ) kh (kh.val : ℝ) 1 0 := ⟨hk, by rw [abs_of_pos hk0, one_mul], by simp⟩
  have hw : List.Forall₂ (fun a X => Tr (V * kh.val) a X 1.12 14723.2) (w.map (· * kh)) (W.map (· * (kh.val : ℝ))) := by
    rw [List.forall₂_map_left_iff, List.forall₂_map_right_iff]
    refine h.imp fun a X ha => ?_
    have := Tr.mul hf hV hk0 S1 ha hkt (K := 14723.2)
    rwa [mul_one] at this
  have hb : Budget 1.12 14723.2 14772 43 :=
    ⟨by norm_num, by norm_num, by norm_num, by norm_num, by norm_num, by norm_num⟩
  obtain ⟨o, O, e1, e2, hF⟩ := adjust_follows hf S1 hb hw (by simpa using hl) A B hAB
  obtain ⟨c1, c3⟩ := foldCounts_ok A (by omega) B (by omega) hAB
  have hF2 := Follows.mul hf (E' := 14778) (mul_pos hV hk0) hVs S2 (by norm_num) (by norm_num) (by norm_num)
    (by norm_num) (by norm_num) hF hs hm c3
  obtain ⟨s1, s2⟩ := hF2.fsum hf S2 (by norm_num) (by norm_num) (fun z hz => (c3 z hz).2) (by omega)
    (by rw [c1]; norm_num)
  refine ⟨o, O, e1, e2, s1, ?_⟩
  rw [dotSum_eq]
  refine s2.trans ?_
  rw [c1]
  have hP : 0 ≤ f.u * (V * kh.val * Vs) := by have := S2.pos; positivity
  have hmr : ((43 - A - B : ℕ) : ℝ) ≤ 43 := by exact_mod_cast (by omega : 43 - A - B ≤ 43)
  rw [← mul_assoc]
  refine mul_le_mul_of_nonneg_right ?_ hP
  push_cast at hmr ⊢
  norm_num
  linarith

end
end CS

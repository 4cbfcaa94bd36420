import Verif.Lemmas.FPScale
import Verif.Lemmas.FPSum
import Verif.Lemmas.FPSprague

/-! Products, sums and the final quotient of the tristimulus integral in floating point. -/

namespace CS

section
variable {f : Fmt}

/-- the product of two values with their own scales -/
theorem Tr.mul (hf : Std f) {V W : ℝ} (hV : 0 < V) (hW : 0 < W) (hS : Scale (V * W)) {a b : FP f}
    {X Y M N k l K : ℝ} (ha : Tr V a X M k) (hb : Tr W b Y N l)
    (hk : 0 ≤ k := by norm_num) (hl : 0 ≤ l := by norm_num) (hM0 : 0 ≤ M := by norm_num)
    (hN0 : 0 ≤ N := by norm_num) (hMN : M * N ≤ 10 ^ 6 := by norm_num)
    (hE : M * l + k * N + k * l / 2 ^ 24 ≤ 10 ^ 6 := by norm_num)
    (hK : rnd (M * l + k * N + k * l / 2 ^ 24) (M * N) ≤ K := by norm_num [rnd]) :
    Tr (V * W) (a * b) (X * Y) (M * N) K := by
  obtain ⟨u0, u1, -⟩ := hf.u_bounds
  have h1 : |((a.val * b.val : ℚ) : ℝ) - X * Y| ≤ (M * l + k * N + k * l / 2 ^ 24) * (f.u * (V * W)) := by
    push_cast
    have e : (a.val : ℝ) * b.val - X * Y = X * (b.val - Y) + (a.val - X) * Y + (a.val - X) * (b.val - Y) := by ring
    rw [e]
    have t1 := abs_add_le (X * ((b.val : ℝ) - Y) + (a.val - X) * Y) ((a.val - X) * (b.val - Y))
    have t2 := abs_add_le (X * ((b.val : ℝ) - Y)) ((a.val - X) * Y)
    rw [abs_mul X, abs_mul _ Y] at t2
    rw [abs_mul ((a.val : ℝ) - X) (b.val - Y)] at t1
    have e1 : |X| * |(b.val : ℝ) - Y| ≤ M * V * (l * (f.u * W)) :=
      mul_le_mul ha.abs hb.err (abs_nonneg _) (by positivity)
    have e2 : |(a.val : ℝ) - X| * |Y| ≤ k * (f.u * V) * (N * W) :=
      mul_le_mul ha.err hb.abs (abs_nonneg _) (by positivity)
    have e3 : |(a.val : ℝ) - X| * |(b.val : ℝ) - Y| ≤ k * (f.u * V) * (l * (f.u * W)) :=
      mul_le_mul ha.err hb.err (abs_nonneg _) (by positivity)
    have e4 : k * (f.u * V) * (l * (f.u * W)) ≤ k * l * (f.u * (V * W)) * (1 / 2 ^ 24) := by
      have : k * (f.u * V) * (l * (f.u * W)) = k * l * (f.u * (V * W)) * f.u := by ring
      rw [this]
      exact mul_le_mul_of_nonneg_left u1 (by positivity)
    have e5 : (M * l + k * N + k * l / 2 ^ 24) * (f.u * (V * W)) = M * V * (l * (f.u * W)) +
        k * (f.u * V) * (N * W) + k * l * (f.u * (V * W)) * (1 / 2 ^ 24) := by ring
    rw [e5]; linarith
  have h2 : |X * Y| ≤ M * N * (V * W) := by
    rw [abs_mul]
    have := mul_le_mul ha.abs hb.abs (abs_nonneg _) (by positivity)
    linarith
  obtain ⟨r, -⟩ := hS.range hf h1 h2 hMN (by positivity) hE
  obtain ⟨c1, c2⟩ := FP.mul_err ha.fin hb.fin r
  exact Tr.round hf hS c1 c2 h1 h2 hMN (by positivity) hE hK

theorem grow_le {u : ℚ} (h0 : 0 ≤ u) : ∀ n : ℕ, (n : ℚ) * u ≤ 1 → (1 + u) ^ n ≤ 1 + n * u + (n * u) ^ 2 := by
  intro n
  induction n with
  | zero => intro _; norm_num
  | succ n ih =>
    intro h
    push_cast at h ⊢
    have h1 : (n : ℚ) * u ≤ 1 := by linarith
    have := ih h1
    rw [pow_succ]
    have h2 := mul_le_mul_of_nonneg_right this (show (0:ℚ) ≤ 1 + u by linarith)
    refine h2.trans ?_
    have h3 : (n : ℚ) * u * (n * u * u) ≤ 1 * (n * u * u) := mul_le_mul_of_nonneg_right h1 (by positivity)
    have h4 : 0 ≤ u * u := by positivity
    have h5 : (0:ℚ) ≤ n * (u * u) := by positivity
    nlinarith

theorem Forall₂.sum_abs {V M k : ℝ} (hf : Std f) (hV : Scale V) (hk : 0 ≤ k) {l : List (FP f)} {L : List ℝ}
    (h : List.Forall₂ (fun a X => Tr V a X M k) l L) :
    (((l.map fun b => |b.val|).sum : ℚ) : ℝ) ≤ l.length * ((M + k / 2 ^ 24) * V) ∧
    |(((l.map FP.val).sum : ℚ) : ℝ) - L.sum| ≤ l.length * (k * (f.u * V)) ∧
    |L.sum| ≤ l.length * (M * V) := by
  obtain ⟨u0, u1, -⟩ := hf.u_bounds
  have hp := hV.pos
  induction h with
  | nil => simp
  | cons h ht ih =>
    rename_i a X l L
    obtain ⟨i1, i2, i3⟩ := ih
    have ha : |(a.val : ℝ)| ≤ (M + k / 2 ^ 24) * V := by
      have t := abs_add_le ((a.val : ℝ) - X) X
      rw [sub_add_cancel] at t
      have : k * (f.u * V) ≤ k * (1 / 2 ^ 24 * V) :=
        mul_le_mul_of_nonneg_left (mul_le_mul_of_nonneg_right u1 hp.le) hk
      linarith [h.err, h.abs]
    simp only [List.map_cons, List.sum_cons, List.length_cons, Rat.cast_add, Rat.cast_abs, Nat.cast_succ]
    refine ⟨by linarith, ?_, ?_⟩
    · have t := abs_add_le ((a.val : ℝ) - X) (((l.map FP.val).sum : ℚ) - L.sum)
      have e : (a.val : ℝ) - X + (((l.map FP.val).sum : ℚ) - L.sum) =
        a.val + ((l.map FP.val).sum : ℚ) - (X + L.sum) := by ring
      rw [e] at t
      have := h.err
      linarith
    · have t := abs_add_le X L.sum
      have := h.abs
      linarith

/-- a sum of `n` terms -/
theorem fsum_tr [Libm f] (hf : Std f) {V M k : ℝ} (hV : Scale V) (hM0 : 0 ≤ M) (hk : 0 ≤ k) (hM : M ≤ 10 ^ 6)
    (hk' : k ≤ 10 ^ 6) {l : List (FP f)} {L : List ℝ} (h : List.Forall₂ (fun a X => Tr V a X M k) l L)
    (n : ℕ) (hn : l.length ≤ n) (hn' : n ≤ 2 ^ 10) :
    (fsum l).isFinite = true ∧
    |((fsum l).val : ℝ) - L.sum| ≤ n * ((k + 1.001 * n * (M + k / 2 ^ 24)) * (f.u * V)) ∧
    |L.sum| ≤ n * (M * V) := by
  obtain ⟨u0, u1, -⟩ := hf.u_bounds
  have hp := hV.pos
  obtain ⟨s1, s2, s3⟩ := Forall₂.sum_abs hf hV hk h
  have hlr : (l.length : ℝ) ≤ n := by exact_mod_cast hn
  have hnr : (n : ℝ) ≤ 2 ^ 10 := by exact_mod_cast hn'
  have hlq : (l.length : ℚ) ≤ 2 ^ 10 := by exact_mod_cast hn.trans hn'
  have hnu : (l.length : ℚ) * f.u ≤ 1 / 2 ^ 14 := by
    have := mul_le_mul hlq hf.hu f.u_pos.le (by positivity)
    norm_num at this ⊢
    exact this
  have hg := grow_le f.u_pos.le l.length (hnu.trans (by norm_num))
  have hg2 : (1 + f.u) ^ l.length ≤ 2 := by
    have h1 : ((l.length : ℚ) * f.u) ^ 2 ≤ (1 / 2 ^ 14) ^ 2 :=
      pow_le_pow_left₀ (mul_nonneg (Nat.cast_nonneg _) f.u_pos.le) hnu 2
    norm_num at h1 hnu
    linarith
  have hfin : ∀ b ∈ l, b.isFinite = true := by
    intro b hb
    clear s1 s2 s3 hlr hlq hnu hg hg2 hn
    induction h with
    | nil => cases hb
    | cons h _ ih =>
      rcases List.mem_cons.1 hb with rfl | hb
      · exact h.fin
      · exact ih hb
  have hS : (((l.map fun b => |b.val|).sum : ℚ) : ℝ) ≤ n * ((M + k / 2 ^ 24) * V) :=
    s1.trans (mul_le_mul_of_nonneg_right hlr (by positivity))
  have hS0 : 0 ≤ (l.map fun b => |b.val|).sum := List.sum_nonneg (by
      intro z hz; obtain ⟨w, -, rfl⟩ := List.mem_map.1 hz; exact abs_nonneg _)
  have hrange : (1 + f.u) ^ (0 + l.length) * (0 + (l.map fun b => |b.val|).sum) ≤ 2 ^ f.emax := by
    rw [zero_add, zero_add]
    have h1 : (((l.map fun b => |b.val|).sum : ℚ) : ℝ) ≤ 2 ^ 92 := by
      refine hS.trans ?_
      have e1 : M + k / 2 ^ 24 ≤ 2 ^ 21 := by
        have : k / 2 ^ 24 ≤ 10 ^ 6 / 2 ^ 24 := by gcongr
        norm_num at this hM ⊢; linarith
      have e2 : (M + k / 2 ^ 24) * V ≤ 2 ^ 21 * 2 ^ 60 := mul_le_mul e1 hV.hi hp.le (by positivity)
      have e3 := mul_le_mul hnr e2 (by positivity) (by positivity)
      exact e3.trans (by norm_num)
    have h2 : (l.map fun b => |b.val|).sum ≤ 2 ^ 92 := by qcast h1
    have h3 := mul_le_mul hg2 h2 hS0 (by norm_num)
    have b := hf.wide.hmax
    have c : (2:ℚ) * 2 ^ 92 ≤ 2 ^ 126 := by
      rw [← pow_succ']; exact pow_le_pow_right₀ (by norm_num) (by norm_num)
    have hp : (0:ℚ) < 2 ^ f.emax := by positivity
    generalize (2:ℚ) ^ f.emax = z at *
    generalize (2:ℚ) ^ 126 = z' at *
    generalize (2:ℚ) ^ 92 = z'' at *
    linarith
  have hz : (Flt.zero : FP f).isFinite = true ∧ (Flt.zero : FP f).val = 0 := by
    show (FP.lit 0 : FP f).isFinite = true ∧ (FP.lit 0 : FP f).val = 0
    rw [FP.lit_zero]
    exact ⟨rfl, rfl⟩
  have n0 : Near (Flt.zero : FP f) 0 0 0 0 := ⟨hz.1, by simp, by rw [hz.2]; simp⟩
  have nr := Near.foldl l Flt.zero 0 0 0 n0 hfin hrange
  refine ⟨nr.fin, ?_, s3.trans (mul_le_mul_of_nonneg_right hlr (by positivity))⟩
  have he := nr.err
  simp only [zero_add, Nat.cast_zero, zero_mul, add_zero] at he
  have hg3 : (1 + f.u) ^ l.length - 1 ≤ 1.001 * (l.length * f.u) := by
    have h0 : 0 ≤ (l.length : ℚ) * f.u := mul_nonneg (Nat.cast_nonneg _) f.u_pos.le
    have h1 : ((l.length : ℚ) * f.u) ^ 2 ≤ (l.length * f.u) * (1 / 2 ^ 14) := by
      rw [pow_two]; exact mul_le_mul_of_nonneg_left hnu h0
    norm_num at h1 ⊢
    linarith
  have he' : |(fsum l).val - (l.map FP.val).sum| ≤ 1.001 * (l.length * f.u) * (l.map fun b => |b.val|).sum :=
    he.trans (mul_le_mul_of_nonneg_right hg3 hS0)
  have her : |((fsum l).val : ℝ) - ((l.map FP.val).sum : ℚ)| ≤
      1.001 * (l.length * f.u) * ((l.map fun b => |b.val|).sum : ℚ) := by
    have := (Rat.cast_le (K := ℝ)).2 he'
    rw [Rat.cast_abs, Rat.cast_sub] at this
    refine this.trans (le_of_eq ?_)
    push_cast
    norm_num
  have t := abs_add_le (((fsum l).val : ℝ) - ((l.map FP.val).sum : ℚ)) (((l.map FP.val).sum : ℚ) - L.sum)
  rw [sub_add_sub_cancel] at t
  have e1 : 1.001 * ((l.length : ℝ) * f.u) * (((l.map fun b => |b.val|).sum : ℚ) : ℝ) ≤
      1.001 * (n * f.u) * (n * ((M + k / 2 ^ 24) * V)) := by
    have : (0:ℝ) ≤ ((l.map fun b => |b.val|).sum : ℚ) := by exact_mod_cast hS0
    gcongr
  have e2 : (l.length : ℝ) * (k * (f.u * V)) ≤ n * (k * (f.u * V)) :=
    mul_le_mul_of_nonneg_right hlr (by positivity)
  have e3 : (n : ℝ) * ((k + 1.001 * n * (M + k / 2 ^ 24)) * (f.u * V)) =
      1.001 * (n * f.u) * (n * ((M + k / 2 ^ 24) * V)) + n * (k * (f.u * V)) := by ring
  rw [e3]
  linarith

set_option maxHeartbeats 800000 in
/-- `100 / D * N` from the float sums -/
theorem ratio_err [Libm f] (hf : Std f) {dh nh : FP f} {D N A Vs κ : ℝ} (hdf : dh.isFinite = true)
    (hnf : nh.isFinite = true) (hd : |(dh.val : ℝ) - D| ≤ 70200 * f.u * A)
    (hn : |(nh.val : ℝ) - N| ≤ 115000 * f.u * (Vs * A)) (hN : |N| ≤ 2.69 * (Vs * A)) (hD : D ≤ 1.94 * A)
    (hA : 1 / 2 ^ 32 ≤ A) (hA' : A ≤ 2 ^ 46) (hVs : 1 / 2 ^ 16 ≤ Vs) (hVs' : Vs ≤ 2 ^ 16)
    (hκ0 : 0 < κ) (hκ : A ≤ κ * D) (hκ' : κ ≤ 2 ^ 20) (hκu : κ * 10 ^ 6 * f.u ≤ 1) :
    (Flt.lit 100.0 / dh * nh).isFinite = true ∧
    |((Flt.lit 100.0 / dh * nh).val : ℝ) - 100 / D * N| ≤
      (1.4e7 * Vs + 8e4 * |100 / D * N|) * κ * f.u := by
  obtain ⟨u0, u1, u2⟩ := hf.u_bounds
  have A0 : 0 < A := lt_of_lt_of_le (by positivity) hA
  have V0 : 0 < Vs := lt_of_lt_of_le (by positivity) hVs
  obtain ⟨l1, l2⟩ : (Flt.lit 100.0 : FP f).isFinite = true ∧ (Flt.lit 100.0 : FP f).val = 100 :=
    ⟨lit_fin hf 100 _, by have := lit_val hf 100 (100.0 : ℚ); exact_mod_cast this⟩
  have D0 : 0 < D := by
    by_contra hc
    have := mul_nonpos_of_nonneg_of_nonpos hκ0.le (not_lt.1 hc)
    linarith
  -- the denominator
  have r1 : κ * f.u ≤ 1 / 10 ^ 6 := by
    rw [le_div_iff₀ (by positivity)]; linarith
  have uA : f.u * A ≤ κ * f.u * D := by
    have := mul_le_mul_of_nonneg_left hκ u0.le
    linarith
  have uA' : f.u * A ≤ 1 / 10 ^ 6 * D := uA.trans (mul_le_mul_of_nonneg_right r1 D0.le)
  have hd1 : |(dh.val : ℝ) - D| ≤ 0.0702 * D := by
    have : 70200 * f.u * A ≤ 0.0702 * D := by norm_num at uA' ⊢; linarith
    exact hd.trans this
  obtain ⟨hd2, hd3⟩ := abs_le.1 hd1
  have dlo : 0.9298 * D ≤ dh.val := by norm_num at hd2 ⊢; linarith
  have dhi : (dh.val : ℝ) ≤ 1.0702 * D := by norm_num at hd3 ⊢; linarith
  have dpos : (0:ℝ) < dh.val := lt_of_lt_of_le (by positivity) dlo
  have dposq : 0 < dh.val := by exact_mod_cast dpos
  -- the quotient
  have Dlo : 1 / 2 ^ 52 ≤ D := by
    have h1 : A ≤ 2 ^ 20 * D := hκ.trans (mul_le_mul_of_nonneg_right hκ' D0.le)
    have : (1:ℝ) / 2 ^ 32 ≤ 2 ^ 20 * D := hA.trans h1
    norm_num at this ⊢; linarith
  have Dhi : D ≤ 2 ^ 47 := by norm_num at hA' hD ⊢; linarith
  set q : ℝ := 100 / dh.val with hq
  have q0 : 0 < q := by positivity
  have qhi : q ≤ 2 ^ 60 := by
    rw [hq, div_le_iff₀ dpos]
    norm_num at Dlo dlo ⊢; linarith
  have qlo : 1 / 2 ^ 48 ≤ q := by
    rw [hq, le_div_iff₀ dpos]
    norm_num at Dhi dhi ⊢; linarith
  have qr : |(Flt.lit 100.0 : FP f).val / dh.val| ≤ 2 ^ 60 := by
    rw [l2, abs_of_nonneg (by positivity)]
    have : ((100 / dh.val : ℚ) : ℝ) ≤ 2 ^ 60 := by push_cast; exact qhi
    exact_mod_cast this
  obtain ⟨k1, k2⟩ := FP.div_err l1 hdf dposq.ne' (pow_le_emax hf.wide (qr.trans (by norm_num)))
  have k3 : |((Flt.lit 100.0 / dh).val : ℝ) - q| ≤ q * f.u + f.eta := by
    have := (Rat.cast_le (K := ℝ)).2 k2
    rw [Rat.cast_abs, Rat.cast_sub, l2, abs_of_nonneg (show (0:ℚ) ≤ 100 / dh.val by positivity)] at this
    push_cast at this
    exact this
  have k4 : |((Flt.lit 100.0 / dh).val : ℝ) - q| ≤ 1.0001 * (q * f.u) := by
    refine k3.trans ?_
    have : (f.eta : ℝ) ≤ 0.0001 * (q * f.u) := by
      refine u2.trans ?_
      have h1 : (1:ℝ) / 2 ^ 124 ≤ 0.0001 * q := by
        have := mul_le_mul_of_nonneg_left qlo (show (0:ℝ) ≤ 0.0001 by norm_num)
        refine le_trans ?_ this
        norm_num
      have h2 := mul_le_mul_of_nonneg_right h1 u0.le
      calc (f.u : ℝ) / 2 ^ 124 = 1 / 2 ^ 124 * f.u := by ring
        _ ≤ 0.0001 * q * f.u := h2
        _ = _ := by ring
    norm_num at this ⊢; linarith
  generalize Flt.lit 100.0 / dh = kh at *
  -- sizes
  have P0 : 0 < Vs * A := by positivity
  have uVA : f.u * (Vs * A) ≤ 1 / 2 ^ 24 * (Vs * A) := mul_le_mul_of_nonneg_right u1 P0.le
  have nabs : |(nh.val : ℝ)| ≤ 2.7 * (Vs * A) := by
    have t := abs_add_le ((nh.val : ℝ) - N) N
    rw [sub_add_cancel] at t
    norm_num at uVA hn hN ⊢; linarith
  have Vκ0 : 0 < Vs * κ := by positivity
  -- `A q` is at most `107.6 κ`
  have Aq : A * q ≤ 107.6 * κ := by
    rw [hq, mul_div_assoc', div_le_iff₀ dpos]
    have h1 : κ * (0.9298 * D) ≤ κ * dh.val := mul_le_mul_of_nonneg_left dlo hκ0.le
    norm_num at h1 ⊢; linarith
  have qn : |(nh.val : ℝ)| * q ≤ 290.6 * (Vs * κ) := by
    have h1 := mul_le_mul_of_nonneg_right nabs q0.le
    have h2 := mul_le_mul_of_nonneg_left Aq V0.le
    norm_num at h1 h2 ⊢; linarith
  have kabs : |(kh.val : ℝ)| ≤ 1.001 * q := by
    have t := abs_add_le ((kh.val : ℝ) - q) q
    rw [sub_add_cancel, abs_of_pos q0] at t
    have : q * f.u ≤ q * (1 / 2 ^ 24) := mul_le_mul_of_nonneg_left u1 q0.le
    norm_num at this k4 ⊢; linarith
  have kn : |(kh.val : ℝ)| * |(nh.val : ℝ)| ≤ 291 * (Vs * κ) := by
    have h1 := mul_le_mul_of_nonneg_right kabs (abs_nonneg (nh.val : ℝ))
    norm_num at h1 qn ⊢; nlinarith
  have knr : |kh.val * nh.val| ≤ 2 ^ 61 := by
    have h1 : |((kh.val * nh.val : ℚ) : ℝ)| ≤ 2 ^ 61 := by
      push_cast
      rw [abs_mul]
      refine kn.trans ?_
      have : Vs * κ ≤ 2 ^ 16 * 2 ^ 20 := mul_le_mul hVs' hκ' hκ0.le (by positivity)
      norm_num at this ⊢; linarith
    exact_mod_cast h1
  obtain ⟨p1, p2⟩ := FP.mul_err k1 hnf (pow_le_emax hf.wide knr)
  refine ⟨p1, ?_⟩
  have p3 : |((kh * nh).val : ℝ) - kh.val * nh.val| ≤ |(kh.val : ℝ)| * |(nh.val : ℝ)| * f.u + f.eta := by
    have := (Rat.cast_le (K := ℝ)).2 p2
    rw [abs_mul] at this
    push_cast at this
    exact this
  have κhalf : 0.5 ≤ κ := by
    have h1 : A ≤ κ * (1.94 * A) := hκ.trans (mul_le_mul_of_nonneg_left hD hκ0.le)
    have h2 : 1 * A ≤ (κ * 1.94) * A := by linarith
    have := le_of_mul_le_mul_right h2 A0
    norm_num at this ⊢; linarith
  -- the pieces
  have c1 : |((kh * nh).val : ℝ) - kh.val * nh.val| ≤ 292 * (Vs * κ) * f.u := by
    have h1 := mul_le_mul_of_nonneg_right kn u0.le
    have h2 : (f.eta : ℝ) ≤ Vs * κ * f.u := by
      refine u2.trans ?_
      have h3 : (1:ℝ) / 2 ^ 16 * 0.5 ≤ Vs * κ := mul_le_mul hVs κhalf (by norm_num) V0.le
      have h4 : (1:ℝ) / 2 ^ 124 ≤ Vs * κ := le_trans (by norm_num) h3
      have := mul_le_mul_of_nonneg_right h4 u0.le
      calc (f.u : ℝ) / 2 ^ 124 = 1 / 2 ^ 124 * f.u := by ring
        _ ≤ _ := this
    linarith
  have c2 : |(kh.val : ℝ) * nh.val - q * nh.val| ≤ 291 * (Vs * κ) * f.u := by
    rw [← sub_mul, abs_mul]
    have h1 := mul_le_mul_of_nonneg_right k4 (abs_nonneg (nh.val : ℝ))
    have h2 := mul_le_mul_of_nonneg_right qn u0.le
    have h3 : 0 ≤ Vs * κ * f.u := by positivity
    norm_num at h1 h2 ⊢
    nlinarith
  have c3 : |q * nh.val - q * N| ≤ 12374000 * (Vs * κ) * f.u := by
    rw [← mul_sub, abs_mul, abs_of_pos q0]
    have h1 := mul_le_mul_of_nonneg_left hn q0.le
    have h2 := mul_le_mul_of_nonneg_left Aq (mul_nonneg u0.le V0.le)
    norm_num at h1 h2 ⊢
    linarith
  have c4 : |q * N - 100 / D * N| ≤ 75600 * |100 / D * N| * κ * f.u := by
    have e : q * N - 100 / D * N = (100 / D * N) * ((D - dh.val) / dh.val) := by
      rw [hq]; field_simp
    rw [e, abs_mul, abs_div, abs_of_pos dpos, abs_sub_comm]
    have h1 : |(dh.val : ℝ) - D| / dh.val ≤ 75600 * κ * f.u := by
      rw [div_le_iff₀ dpos]
      have h2 : κ * f.u * (0.9298 * D) ≤ κ * f.u * dh.val :=
        mul_le_mul_of_nonneg_left dlo (by positivity)
      have h3 : 0 ≤ κ * f.u * D := by positivity
      have h4 : 70200 * (f.u * A) ≤ 70200 * (κ * f.u * D) := mul_le_mul_of_nonneg_left uA (by norm_num)
      norm_num at h2 ⊢
      linarith
    have := mul_le_mul_of_nonneg_left h1 (abs_nonneg (100 / D * N))
    linarith
  have t1 := abs_add_le (((kh * nh).val : ℝ) - kh.val * nh.val) (kh.val * nh.val - q * nh.val)
  rw [sub_add_sub_cancel] at t1
  have t2 := abs_add_le (((kh * nh).val : ℝ) - q * nh.val) (q * nh.val - q * N)
  rw [sub_add_sub_cancel] at t2
  have t3 := abs_add_le (((kh * nh).val : ℝ) - q * N) (q * N - 100 / D * N)
  rw [sub_add_sub_cancel] at t3
  have h1 : 0 ≤ Vs * κ * f.u := by positivity
  have h2 : 0 ≤ |100 / D * N| * κ * f.u := by positivity
  have e : (1.4e7 * Vs + 8e4 * |100 / D * N|) * κ * f.u =
      14000000 * (Vs * κ * f.u) + 80000 * (|100 / D * N| * κ * f.u) := by ring
  rw [e]
  linarith

end
end CS

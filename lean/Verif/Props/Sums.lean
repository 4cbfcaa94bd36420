import Verif.Lemmas.FPSum
import Verif.Props.Spd
import Verif.Num.KRefl

/-!
# Rounding error of sums (C80, C81)

`f.u = 2^-p` is the unit roundoff, `f.eta = 2^(emin - p)` half of the smallest positive number.
-/

namespace CS

/-! ## C80: summing colours -/

theorem near_zero {f : Fmt} [Libm f] : Near (Flt.zero : FP f) 0 0 0 0 := by
  have : (Flt.zero : FP f) = FP.lit ((0 : ℕ) : ℚ) := by show FP.lit _ = _; norm_num
  rw [this, FP.lit_nat 0 (by positivity) (by norm_num)]
  exact ⟨rfl, by simp, by simp [FP.val]⟩

theorem xyzVec_foldl {f : Fmt} (i : Fin 3) (l : List (XYZ (FP f))) : ∀ a : XYZ (FP f),
    xyzVec (l.foldl (· + ·) a) i = (l.map (xyzVec · i)).foldl (· + ·) (xyzVec a i) := by
  induction l with
  | nil => intro a; rfl
  | cons b l ih =>
    intro a
    rw [List.foldl_cons, ih, List.map_cons, List.foldl_cons]
    congr 1
    fin_cases i <;> rfl

theorem rgbVec_foldl {f : Fmt} (i : Fin 3) (l : List (RGBf (FP f))) : ∀ a : RGBf (FP f),
    rgbVec (l.foldl (· + ·) a) i = (l.map (rgbVec · i)).foldl (· + ·) (rgbVec a i) := by
  induction l with
  | nil => intro a; rfl
  | cons b l ih =>
    intro a
    rw [List.foldl_cons, ih, List.map_cons, List.foldl_cons]
    congr 1
    fin_cases i <;> rfl

theorem near_sum {f : Fmt} [Libm f] (l : List (FP f)) (hl : ∀ b ∈ l, b.isFinite = true)
    (hb : (1 + f.u) ^ l.length * (l.map fun b => |b.val|).sum ≤ 2 ^ f.emax) :
    (l.foldl (· + ·) (Flt.zero : FP f)).isFinite = true ∧
    |(l.foldl (· + ·) (Flt.zero : FP f)).val - (l.map FP.val).sum| ≤
      ((1 + f.u) ^ l.length - 1) * (l.map fun b => |b.val|).sum := by
  have h := Near.foldl l _ _ _ _ near_zero hl (by simpa using hb)
  refine ⟨h.fin, ?_⟩
  have := h.err
  simpa using this

/-- C80 [F]: adding up `n` finite XYZ colours gives, in every component, a finite number within
`(1 + u)^n - 1` times the sum of the absolute values of the exact sum, if that cannot overflow. -/
theorem C80_sum_xyz {f : Fmt} [Libm f] (l : List (XYZ (FP f))) (i : Fin 3)
    (hl : ∀ c ∈ l, (xyzVec c i).isFinite = true)
    (hb : (1 + f.u) ^ l.length * (l.map fun c => |(xyzVec c i).val|).sum ≤ 2 ^ f.emax) :
    (xyzVec (XYZ.sum l) i).isFinite = true ∧
    |(xyzVec (XYZ.sum l) i).val - (l.map fun c => (xyzVec c i).val).sum| ≤
      ((1 + f.u) ^ l.length - 1) * (l.map fun c => |(xyzVec c i).val|).sum := by
  have h0 : xyzVec (XYZ.fromScalar (Flt.zero : FP f)) i = Flt.zero := by fin_cases i <;> rfl
  unfold XYZ.sum
  rw [xyzVec_foldl, h0]
  have := near_sum (l.map (xyzVec · i)) (by
    intro b hb; obtain ⟨c, hc, rfl⟩ := List.mem_map.1 hb; exact hl c hc) (by
    rw [List.length_map, List.map_map]; exact hb)
  rw [List.length_map, List.map_map, List.map_map] at this
  exact this

/-- C80 [F]: the same for RGB colours. -/
theorem C80_sum_rgb {f : Fmt} [Libm f] (l : List (RGBf (FP f))) (i : Fin 3)
    (hl : ∀ c ∈ l, (rgbVec c i).isFinite = true)
    (hb : (1 + f.u) ^ l.length * (l.map fun c => |(rgbVec c i).val|).sum ≤ 2 ^ f.emax) :
    (rgbVec (RGBf.sum l) i).isFinite = true ∧
    |(rgbVec (RGBf.sum l) i).val - (l.map fun c => (rgbVec c i).val).sum| ≤
      ((1 + f.u) ^ l.length - 1) * (l.map fun c => |(rgbVec c i).val|).sum := by
  have h0 : rgbVec (RGBf.fromScalar (Flt.zero : FP f)) i = Flt.zero := by fin_cases i <;> rfl
  unfold RGBf.sum
  rw [rgbVec_foldl, h0]
  have := near_sum (l.map (rgbVec · i)) (by
    intro b hb; obtain ⟨c, hc, rfl⟩ := List.mem_map.1 hb; exact hl c hc) (by
    rw [List.length_map, List.map_map]; exact hb)
  rw [List.length_map, List.map_map, List.map_map] at this
  exact this

/-- Not vacuous: three f32 colours. -/
example : let d (n : ℤ) : FP Fmt.b32 := FP.ofQ Fmt.b32 false (n / 10)
    let l : List (XYZ (FP Fmt.b32)) := [⟨d 1, d 2, d 3⟩, ⟨d 4, d (-5), d 6⟩, ⟨d 7, d 8, d 9⟩]
    (∀ c ∈ l, (xyzVec c 0).isFinite = true) ∧
    (1 + Fmt.b32.u) ^ l.length * (l.map fun c => |(xyzVec c 0).val|).sum ≤ 2 ^ Fmt.b32.emax := by
  intro d l
  simp only [l, List.forall_mem_cons, List.not_mem_nil, false_implies, implies_true, and_true]
  exact of_decide_eq_true (by krefl)

/-! ## C81: the fixed-size spectra -/

theorem kahan_proj {f : Fmt} (i : Fin 3) (s : SPD (FP f)) (w : Fin 3 → SPD (FP f))
    (L : List (Fin 40)) : ∀ st : XYZ (FP f) × XYZ (FP f),
    (xyzVec (L.foldl (kahanStep s (w 0) (w 1) (w 2)) st).1 i,
      xyzVec (L.foldl (kahanStep s (w 0) (w 1) (w 2)) st).2 i) =
    (L.map fun k => s.values k * (w i).values k).foldl kahan1 (xyzVec st.1 i, xyzVec st.2 i) := by
  induction L with
  | nil => intro st; rfl
  | cons k L ih =>
    intro st
    rw [List.foldl_cons, ih, List.map_cons, List.foldl_cons]
    congr 1
    fin_cases i <;> rfl

section
variable {f : Fmt}

/-- the products and what rounding does to them -/
theorem products (s w : SPD (FP f)) (hs : ∀ k, (s.values k).isFinite = true)
    (hw : ∀ k, (w.values k).isFinite = true)
    (hb : ∑ k, |(s.values k).val * (w.values k).val| ≤ 2 ^ f.emax / 8) (k : Fin 40) :
    Near (s.values k * w.values k) ((s.values k).val * (w.values k).val)
      |(s.values k).val * (w.values k).val| 1 1 := by
  refine Near.mul (hs k) (hw k) ?_
  have h1 := Finset.single_le_sum (s := Finset.univ)
    (f := fun k => |(s.values k).val * (w.values k).val|)
    (fun _ _ => abs_nonneg _) (Finset.mem_univ k)
  have h2 : (0:ℚ) < 2 ^ f.emax := by positivity
  have h3 : |(s.values k).val * (w.values k).val| ≤ 2 ^ f.emax / 8 := le_trans h1 hb
  linarith

theorem sum_finRangeQ (g : Fin 40 → ℚ) : ((List.finRange 40).map g).sum = ∑ i, g i := by
  rw [← List.ofFn_eq_map, List.sum_ofFn]

/-- C81 [F]: in every format at least as wide as f32, every channel of the compensated scalar
conversion is finite and within `8u Σ|sₖ wₖ| + 41 η` of the exact weighted sum. -/
theorem C81_scalar [Libm f] (hf : Wide f) (s : SPD (FP f)) (w : Fin 3 → SPD (FP f)) (i : Fin 3)
    (hs : ∀ k, (s.values k).isFinite = true) (hw : ∀ k, ((w i).values k).isFinite = true)
    (hb : ∑ k, |(s.values k).val * ((w i).values k).val| ≤ 2 ^ f.emax / 8) :
    (xyzVec (spdToXyzScalar (w 0) (w 1) (w 2) s) i).isFinite = true ∧
    |(xyzVec (spdToXyzScalar (w 0) (w 1) (w 2) s) i).val
        - ∑ k, (s.values k).val * ((w i).values k).val| ≤
      8 * f.u * ∑ k, |(s.values k).val * ((w i).values k).val| + 41 * f.eta := by
  have hp := products s (w i) hs hw hb
  set P := ∑ k, |(s.values k).val * ((w i).values k).val| with hP
  set E := ∑ k, (s.values k).val * ((w i).values k).val with hE
  have hu0 := f.u_pos
  have he0 := f.eta_pos
  have hu := hf.hu
  have hP0 : 0 ≤ P := Finset.sum_nonneg fun _ _ => abs_nonneg _
  -- the list of rounded products
  set l := (List.finRange 40).map fun k => s.values k * (w i).values k with hl
  set A := ∑ k, |(s.values k * (w i).values k).val| with hA
  have hlA : (l.map fun x => |x.val|).sum = A := by
    rw [hl, List.map_map]; exact sum_finRangeQ _
  have hlE : (l.map FP.val).sum = ∑ k, (s.values k * (w i).values k).val := by
    rw [hl, List.map_map]; exact sum_finRangeQ _
  have hAP : A ≤ (1 + f.u) * P + 40 * ((1 + f.u) * f.eta) := by
    have : A ≤ ∑ k : Fin 40, ((1 + f.u) * |(s.values k).val * ((w i).values k).val|
        + (1 + f.u) * f.eta) := Finset.sum_le_sum fun k _ => by
      have := (hp k).val_abs; simpa using this
    rw [Finset.sum_add_distrib, ← Finset.mul_sum] at this
    simpa [-abs_mul] using this
  have hEP : |∑ k, (s.values k * (w i).values k).val - E| ≤ f.u * P + 40 * ((1 + f.u) * f.eta) := by
    rw [hE, ← Finset.sum_sub_distrib]
    refine le_trans (Finset.abs_sum_le_sum_abs _ _) ?_
    have : ∑ k, |(s.values k * (w i).values k).val - (s.values k).val * ((w i).values k).val| ≤
        ∑ k : Fin 40, (f.u * |(s.values k).val * ((w i).values k).val| + (1 + f.u) * f.eta) :=
      Finset.sum_le_sum fun k _ => by
        have := (hp k).err; simpa using this
    rw [Finset.sum_add_distrib, ← Finset.mul_sum] at this
    simpa [-abs_mul] using this
  have hη : f.eta ≤ 1 / 2 ^ 100 := by
    have := hf.heta
    have h2 : f.u / 2 ^ 124 ≤ 1 / 2 ^ 20 / 2 ^ 124 := by gcongr
    refine le_trans this (le_trans h2 (by norm_num))
  have hmax := hf.hmax
  have ue : f.u * f.eta ≤ 1 / 2 ^ 20 * f.eta := mul_le_mul_of_nonneg_right hu he0.le
  have uP : f.u * P ≤ 1 / 2 ^ 20 * P := mul_le_mul_of_nonneg_right hu hP0
  have hA4 : 4 * A ≤ 2 ^ f.emax := by
    have h126 : (1:ℚ) ≤ 2 ^ f.emax / 2 := le_trans (by norm_num) hmax
    have : 4 * A ≤ 4 * ((1 + f.u) * P + 40 * ((1 + f.u) * f.eta)) := by linarith
    have e : 4 * ((1 + f.u) * P + 40 * ((1 + f.u) * f.eta))
      = 4 * P + 4 * (f.u * P) + 160 * f.eta + 160 * (f.u * f.eta) := by ring
    have h3 : (160:ℚ) * f.eta + 160 * (f.u * f.eta) ≤ 1 / 4 := by
      have : (1:ℚ) / 2 ^ 100 ≤ 1 / 1000 := by norm_num
      linarith
    linarith
  have hz : (Flt.lit (0.0:ℚ) : FP f) = FP.lit ((0 : ℕ) : ℚ) := by show FP.lit _ = _; norm_num
  have z1 : (Flt.lit (0.0:ℚ) : FP f).isFinite = true ∧ (Flt.lit (0.0:ℚ) : FP f).val = 0 := by
    rw [hz, FP.lit_nat 0 (by positivity) (by norm_num)]
    exact ⟨rfl, by simp [FP.val]⟩
  have hA0 : 0 ≤ A := Finset.sum_nonneg fun _ _ => abs_nonneg _
  have K := kahan_sum hu hA4 l (Flt.lit 0.0) (Flt.lit 0.0) 0 0 0 z1.1 z1.1 (by
      intro x hx
      rw [hl] at hx
      obtain ⟨k, -, rfl⟩ := List.mem_map.1 hx
      exact (hp k).fin) (by rw [z1.2, abs_zero]; positivity) le_rfl (by simp) (by rw [z1.2]; simp)
      (by rw [zero_add, hlA]) (by rw [hl, List.length_map, List.length_finRange]; norm_num)
  have hproj := kahan_proj i s w (List.finRange 40)
    (XYZ.fromScalar (Flt.lit 0.0), XYZ.fromScalar (Flt.lit 0.0))
  have hz3 : xyzVec (XYZ.fromScalar (Flt.lit (0.0:ℚ) : FP f)) i = Flt.lit 0.0 := by
    fin_cases i <;> rfl
  simp only [hz3] at hproj
  have e1 : xyzVec (spdToXyzScalar (w 0) (w 1) (w 2) s) i
      = (l.foldl kahan1 (Flt.lit 0.0, Flt.lit 0.0)).1 := by
    rw [hl, ← hproj]; rfl
  rw [e1]
  refine ⟨K.1, ?_⟩
  have K2 := K.2
  rw [zero_add, hlE] at K2
  set r := (l.foldl kahan1 (Flt.lit 0.0, Flt.lit 0.0)).1.val
  have t := abs_add_le (r - ∑ k, (s.values k * (w i).values k).val)
    (∑ k, (s.values k * (w i).values k).val - E)
  rw [sub_add_sub_cancel] at t
  have uA : f.u * A ≤ f.u * ((1 + f.u) * P + 40 * ((1 + f.u) * f.eta)) :=
    mul_le_mul_of_nonneg_left hAP hu0.le
  have uuP : f.u * (f.u * P) ≤ 1 / 2 ^ 20 * (f.u * P) :=
    mul_le_mul_of_nonneg_right hu (mul_nonneg hu0.le hP0)
  have uue : f.u * (f.u * f.eta) ≤ 1 / 2 ^ 20 * (f.u * f.eta) :=
    mul_le_mul_of_nonneg_right hu (mul_nonneg hu0.le he0.le)
  have uP0 : 0 ≤ f.u * P := by positivity
  have e2 : f.u * ((1 + f.u) * P + 40 * ((1 + f.u) * f.eta))
    = f.u * P + f.u * (f.u * P) + 40 * (f.u * f.eta) + 40 * (f.u * (f.u * f.eta)) := by ring
  have e3 : 6.2 * f.u * A = 6.2 * (f.u * A) := by ring
  have e4 : 8 * f.u * P = 8 * (f.u * P) := by ring
  have e5 : (40:ℚ) * ((1 + f.u) * f.eta) = 40 * f.eta + 40 * (f.u * f.eta) := by ring
  rw [e4]
  rw [e3] at K2
  rw [e5] at hEP
  linarith

/-- seven roundings -/
theorem grow7 (hu : f.u ≤ 1 / 2 ^ 20) : (1 + f.u) ^ 7 ≤ 1 + 8 * f.u := by
  have h0 := f.u_pos
  have h1 : f.u ≤ 1 / 1000 := le_trans hu (by norm_num)
  have e2 : (1 + f.u) ^ 2 ≤ 1 + 2.01 * f.u := by nlinarith
  have e4 : (1 + f.u) ^ 4 ≤ 1 + 4.1 * f.u := by
    have : (1 + f.u) ^ 4 = (1 + f.u) ^ 2 * (1 + f.u) ^ 2 := by ring
    have p : 0 ≤ (1 + f.u) ^ 2 := by positivity
    nlinarith
  have e6 : (1 + f.u) ^ 6 ≤ 1 + 6.3 * f.u := by
    have : (1 + f.u) ^ 6 = (1 + f.u) ^ 4 * (1 + f.u) ^ 2 := by ring
    have p : 0 ≤ (1 + f.u) ^ 2 := by positivity
    have q : 0 ≤ (1 + f.u) ^ 4 := by positivity
    nlinarith
  have : (1 + f.u) ^ 7 = (1 + f.u) ^ 6 * (1 + f.u) := by ring
  nlinarith

/-- one AVX channel, lane by lane -/
theorem near_channel (hu : f.u ≤ 1 / 2 ^ 20) (s w : SPD (FP f)) (x S : Fin 40 → ℚ)
    (hp : ∀ k, Near (s.values k * w.values k) (x k) (S k) 1 1)
    (hb : (1 + 8 * f.u) * ((∑ k, S k) + 40 * f.eta) ≤ 2 ^ f.emax) :
    Near (avxChannel s w) (∑ k, x k) (∑ k, S k) 7 40 := by
  have hu0 := f.u_pos
  have he0 := f.eta_pos
  have hS0 : ∀ k, 0 ≤ S k := fun k => (hp k).nonneg
  -- the overflow side condition of every addition follows from the total
  have side : ∀ (k n m : ℕ) (R T : ℚ), k ≤ 7 → n + m ≤ 40 → 0 ≤ R + T → R + T ≤ ∑ k, S k →
      (1 + f.u) ^ k * (R + T) + (n + m : ℕ) * (1 + f.u) ^ k * f.eta ≤ 2 ^ f.emax := by
    intro k n m R T hk hnm h0 h1
    refine le_trans ?_ hb
    have g1 := le_trans (grow_mono f hk) (grow7 hu)
    have g0 := one_le_grow f k
    have hc : ((n + m : ℕ) : ℚ) ≤ 40 := by exact_mod_cast hnm
    have hc0 : (0:ℚ) ≤ ((n + m : ℕ) : ℚ) := Nat.cast_nonneg _
    have e : (1 + f.u) ^ k * (R + T) + ((n + m : ℕ) : ℚ) * (1 + f.u) ^ k * f.eta
      = (1 + f.u) ^ k * ((R + T) + ((n + m : ℕ) : ℚ) * f.eta) := by ring
    rw [e]
    have hce : ((n + m : ℕ) : ℚ) * f.eta ≤ 40 * f.eta := mul_le_mul_of_nonneg_right hc he0.le
    have hce0 : 0 ≤ ((n + m : ℕ) : ℚ) * f.eta := by positivity
    exact mul_le_mul g1 (by linarith) (by linarith) (by linarith)
  have sub : ∀ F : Finset (Fin 40), ∑ k ∈ F, S k ≤ ∑ k, S k := fun F =>
    Finset.sum_le_sum_of_subset_of_nonneg (Finset.subset_univ _) fun k _ _ => hS0 k
  -- one lane
  let ix (k : Fin 5) (l : Fin 8) : Fin 40 := ⟨8 * k.val + l.val, by omega⟩
  have p1 : ∀ (k : Fin 5) (l : Fin 8),
      Near (lmul (loadLanes s k) (loadLanes w k) l) (x (ix k l)) (S (ix k l)) 1 1 := fun k l => hp _
  have sum40 : ∀ g : Fin 40 → ℚ, ∑ k, g k = ∑ l : Fin 8, ∑ k : Fin 5, g (ix k l) := by
    intro g
    rw [Finset.sum_comm, ← Fintype.sum_prod_type']
    refine (Fintype.sum_equiv (finProdFinEquiv : Fin 5 × Fin 8 ≃ Fin (5 * 8)) _ g fun x => ?_).symm
    congr 1
    ext
    simp [finProdFinEquiv, ix]
    omega
  have lane : ∀ l : Fin 8, Near
      (ladd (ladd (ladd (lmul (loadLanes s 0) (loadLanes w 0)) (lmul (loadLanes s 1) (loadLanes w 1)))
        (ladd (lmul (loadLanes s 2) (loadLanes w 2)) (lmul (loadLanes s 3) (loadLanes w 3))))
        (lmul (loadLanes s 4) (loadLanes w 4)) l)
      (∑ k : Fin 5, x (ix k l)) (∑ k : Fin 5, S (ix k l)) 4 5 := by
    intro l
    have tot : S (ix 0 l) + S (ix 1 l) + (S (ix 2 l) + S (ix 3 l)) + S (ix 4 l) ≤ ∑ k, S k := by
      rw [sum40]
      have := Finset.single_le_sum (s := Finset.univ) (f := fun l => ∑ k : Fin 5, S (ix k l))
        (fun l _ => Finset.sum_nonneg fun k _ => hS0 _) (Finset.mem_univ l)
      simp only [Fin.sum_univ_five] at this ⊢
      linarith
    have a0 := hS0 (ix 0 l)
    have a1 := hS0 (ix 1 l)
    have a2 := hS0 (ix 2 l)
    have a3 := hS0 (ix 3 l)
    have a4 := hS0 (ix 4 l)
    have q01 := (p1 0 l).add (p1 1 l) (side 1 1 1 _ _ (by norm_num) (by norm_num) (by linarith) (by linarith))
    have q23 := (p1 2 l).add (p1 3 l) (side 1 1 1 _ _ (by norm_num) (by norm_num) (by linarith) (by linarith))
    have q := q01.add q23 (side 2 2 2 _ _ (by norm_num) (by norm_num) (by linarith) (by linarith))
    have r := q.add ((p1 4 l).mono (show 1 ≤ 3 by norm_num) le_rfl)
      (side 3 4 1 _ _ (by norm_num) (by norm_num) (by linarith) (by linarith))
    exact r.congr (by simp only [Fin.sum_univ_five]; ring) (by simp only [Fin.sum_univ_five]; ring)
  rw [sum40 x, sum40 S]
  rw [sum40 S] at side
  set X := fun l : Fin 8 => ∑ k : Fin 5, x (ix k l) with hX
  set R := fun l : Fin 8 => ∑ k : Fin 5, S (ix k l) with hR
  have R0 : ∀ l, 0 ≤ R l := fun l => Finset.sum_nonneg fun k _ => hS0 _
  set v := ladd (ladd (ladd (lmul (loadLanes s 0) (loadLanes w 0)) (lmul (loadLanes s 1) (loadLanes w 1)))
        (ladd (lmul (loadLanes s 2) (loadLanes w 2)) (lmul (loadLanes s 3) (loadLanes w 3))))
        (lmul (loadLanes s 4) (loadLanes w 4)) with hv
  have tot : ∑ l, R l = R 0 + R 1 + R 2 + R 3 + R 4 + R 5 + R 6 + R 7 := Fin.sum_univ_eight _
  have r0 := R0 0
  have r1 := R0 1
  have r2 := R0 2
  have r3 := R0 3
  have r4 := R0 4
  have r5 := R0 5
  have r6 := R0 6
  have r7 := R0 7
  have h04 := (lane 0).add (lane 4) (side 4 5 5 _ _ (by norm_num) (by norm_num) (by show 0 ≤ R 0 + R 4; linarith) (by show R 0 + R 4 ≤ ∑ l, R l; linarith))
  have h15 := (lane 1).add (lane 5) (side 4 5 5 _ _ (by norm_num) (by norm_num) (by show 0 ≤ R 1 + R 5; linarith) (by show R 1 + R 5 ≤ ∑ l, R l; linarith))
  have h26 := (lane 2).add (lane 6) (side 4 5 5 _ _ (by norm_num) (by norm_num) (by show 0 ≤ R 2 + R 6; linarith) (by show R 2 + R 6 ≤ ∑ l, R l; linarith))
  have h37 := (lane 3).add (lane 7) (side 4 5 5 _ _ (by norm_num) (by norm_num) (by show 0 ≤ R 3 + R 7; linarith) (by show R 3 + R 7 ≤ ∑ l, R l; linarith))
  have g1 := h04.add h15 (side 5 10 10 _ _ (by norm_num) (by norm_num)
    (by show 0 ≤ R 0 + R 4 + (R 1 + R 5); linarith) (by show R 0 + R 4 + (R 1 + R 5) ≤ ∑ l, R l; linarith))
  have g2 := h26.add h37 (side 5 10 10 _ _ (by norm_num) (by norm_num)
    (by show 0 ≤ R 2 + R 6 + (R 3 + R 7); linarith) (by show R 2 + R 6 + (R 3 + R 7) ≤ ∑ l, R l; linarith))
  have g := g1.add g2 (side 6 20 20 _ _ (by norm_num) (by norm_num)
    (by show 0 ≤ R 0 + R 4 + (R 1 + R 5) + (R 2 + R 6 + (R 3 + R 7)); linarith)
    (by show R 0 + R 4 + (R 1 + R 5) + (R 2 + R 6 + (R 3 + R 7)) ≤ ∑ l, R l; linarith))
  have e : avxChannel s w = (v 0 + v 4) + (v 1 + v 5) + ((v 2 + v 6) + (v 3 + v 7)) := rfl
  rw [e]
  exact g.congr (by rw [Fin.sum_univ_eight]; ring) (by rw [Fin.sum_univ_eight]; ring)

/-- C81 [F]: the same bound for the AVX conversion with its tree of additions. -/
theorem C81_avx (hf : Wide f) (s : SPD (FP f)) (w : Fin 3 → SPD (FP f)) (i : Fin 3)
    (hs : ∀ k, (s.values k).isFinite = true) (hw : ∀ k, ((w i).values k).isFinite = true)
    (hb : ∑ k, |(s.values k).val * ((w i).values k).val| ≤ 2 ^ f.emax / 8) :
    (xyzVec (spdToXyzAvx (w 0) (w 1) (w 2) s) i).isFinite = true ∧
    |(xyzVec (spdToXyzAvx (w 0) (w 1) (w 2) s) i).val
        - ∑ k, (s.values k).val * ((w i).values k).val| ≤
      8 * f.u * ∑ k, |(s.values k).val * ((w i).values k).val| + 41 * f.eta := by
  have hp := products s (w i) hs hw hb
  have hu0 := f.u_pos
  have he0 := f.eta_pos
  have hu := hf.hu
  have e1 : xyzVec (spdToXyzAvx (w 0) (w 1) (w 2) s) i = avxChannel s (w i) := by
    fin_cases i <;> rfl
  have hη : f.eta ≤ 1 / 2 ^ 100 := by
    have := hf.heta
    have h2 : f.u / 2 ^ 124 ≤ 1 / 2 ^ 20 / 2 ^ 124 := by gcongr
    refine le_trans this (le_trans h2 (by norm_num))
  have hP0 : 0 ≤ ∑ k, |(s.values k).val * ((w i).values k).val| :=
    Finset.sum_nonneg fun _ _ => abs_nonneg _
  have N := near_channel hu s (w i) _ _ hp (by
    have h126 : (1:ℚ) ≤ 2 ^ f.emax / 2 := le_trans (by norm_num) hf.hmax
    have h40 : (40:ℚ) * f.eta ≤ 1 / 8 := by
      have : (1:ℚ) / 2 ^ 100 ≤ 1 / 1000 := by norm_num
      linarith
    have h2 : (1 + 8 * f.u) ≤ 2 := by
      have : (1:ℚ) / 2 ^ 20 ≤ 1 / 8 := by norm_num
      linarith
    have := mul_le_mul_of_nonneg_right h2
      (show 0 ≤ ∑ k, |(s.values k).val * ((w i).values k).val| + 40 * f.eta by linarith)
    linarith)
  rw [e1]
  refine ⟨N.fin, le_trans N.err ?_⟩
  have g := grow7 hu
  have h1 := mul_le_mul_of_nonneg_right (show (1 + f.u) ^ 7 - 1 ≤ 8 * f.u by linarith) hP0
  have h2 : ((40:ℕ):ℚ) * (1 + f.u) ^ 7 * f.eta ≤ 41 * f.eta := by
    apply mul_le_mul_of_nonneg_right _ he0.le
    push_cast
    have : (1:ℚ) / 2 ^ 20 ≤ 1 / 1000 := by norm_num
    linarith
  linarith

/-- C81 [F]: hence the two code paths agree up to `16u Σ|sₖ wₖ| + 82 η` in every channel. -/
theorem C81_paths_agree [Libm f] (hf : Wide f) (s : SPD (FP f)) (w : Fin 3 → SPD (FP f)) (i : Fin 3)
    (hs : ∀ k, (s.values k).isFinite = true) (hw : ∀ k, ((w i).values k).isFinite = true)
    (hb : ∑ k, |(s.values k).val * ((w i).values k).val| ≤ 2 ^ f.emax / 8) :
    |(xyzVec (spdToXyzAvx (w 0) (w 1) (w 2) s) i).val
        - (xyzVec (spdToXyzScalar (w 0) (w 1) (w 2) s) i).val| ≤
      16 * f.u * ∑ k, |(s.values k).val * ((w i).values k).val| + 82 * f.eta := by
  have h1 := (C81_avx hf s w i hs hw hb).2
  have h2 := (C81_scalar hf s w i hs hw hb).2
  rw [abs_sub_comm] at h2
  have := abs_sub_le (xyzVec (spdToXyzAvx (w 0) (w 1) (w 2) s) i).val
    (∑ k, (s.values k).val * ((w i).values k).val) (xyzVec (spdToXyzScalar (w 0) (w 1) (w 2) s) i).val
  linarith
end

/-- every entry of a weight table is a finite f32 close to the printed decimal -/
def weightCheck (t : List ℚ) : Bool :=
  (List.range 40).all (fun k =>
    let q := t.getD k 0
    let x : FP Fmt.b32 := FP.lit q
    x.isFinite && decide (|x.val - q| ≤ |q| / 16700000)) &&
  decide (((List.range 40).map fun k => |t.getD k 0|).sum ≤ 109)

/-- does rounding the printed decimal once give the same f32 as rounding it to f64 first -/
def roundedOnce (t : List ℚ) : Bool :=
  t.all fun q => match (FP.lit q : FP Fmt.b32), FP.ofQ Fmt.b32 false q with
    | .fin a _, .fin b _ => decide (a = b)
    | _, _ => false

/-- The model writes the f32 constants of `W_X`, `W_Y`, `W_Z` as f64 constants converted to f32; that
makes no difference for any of them. -/
theorem weights_roundedOnce :
    (roundedOnce Tables.wX && roundedOnce Tables.wY && roundedOnce Tables.wZ) = true := by krefl

theorem weightCheck_wX : weightCheck Tables.wX = true := by krefl
theorem weightCheck_wY : weightCheck Tables.wY = true := by krefl
theorem weightCheck_wZ : weightCheck Tables.wZ = true := by krefl

/-- the decimals of the three weight tables -/
def Spec.weights (i : Fin 3) (k : Fin 40) : ℚ :=
  ((![Tables.wX, Tables.wY, Tables.wZ] : Fin 3 → List ℚ) i).getD k.val 0

/-- C81 [F]: in f32 with the built-in weights, for every spectrum with samples in [0, 1] and on either
code path, `to_xyz` returns finite values within 6e-5 of the exact weighted sums of the printed
decimals (the perfect white has Y = 100). -/
theorem C81_to_xyz_f32 [Libm Fmt.b32] (avx : Bool) (s : SPD (FP Fmt.b32)) (i : Fin 3)
    (hs : ∀ k, (s.values k).isFinite = true ∧ 0 ≤ (s.values k).val ∧ (s.values k).val ≤ 1) :
    (xyzVec (s.toXyz avx) i).isFinite = true ∧
    |(xyzVec (s.toXyz avx) i).val - ∑ k, (s.values k).val * Spec.weights i k| ≤ 6e-5 := by
  let w : Fin 3 → SPD (FP Fmt.b32) := ![wX, wY, wZ]
  let t : Fin 3 → List ℚ := ![Tables.wX, Tables.wY, Tables.wZ]
  have hchk : weightCheck (t i) = true := by
    fin_cases i
    exacts [weightCheck_wX, weightCheck_wY, weightCheck_wZ]
  have hwv : ∀ k, (w i).values k = FP.lit (Spec.weights i k) := by
    intro k; fin_cases i <;> rfl
  unfold weightCheck at hchk
  rw [Bool.and_eq_true, List.all_eq_true] at hchk
  obtain ⟨hall, hsum⟩ := hchk
  have hsum := of_decide_eq_true hsum
  have hk : ∀ k, ((w i).values k).isFinite = true ∧
      |((w i).values k).val - Spec.weights i k| ≤ |Spec.weights i k| / 16700000 := by
    intro k
    have := hall k.val (List.mem_range.2 k.isLt)
    simp only [Bool.and_eq_true, decide_eq_true_eq] at this
    rw [hwv k]
    exact this
  have hW : ∑ k, |Spec.weights i k| ≤ 109 := by
    refine le_trans (le_of_eq ?_) hsum
    rw [Fin.sum_univ_def, ← List.map_coe_finRange_eq_range, List.map_map]
    rfl
  -- absolute sum
  have hterm : ∀ k, |(s.values k).val * ((w i).values k).val| ≤
      |Spec.weights i k| * (1 + 1 / 16700000) := by
    intro k
    have c := (hk k).2
    rw [abs_mul, abs_of_nonneg (hs k).2.1]
    have t := abs_add_le (((w i).values k).val - Spec.weights i k) (Spec.weights i k)
    rw [sub_add_cancel] at t
    have : (s.values k).val * |((w i).values k).val| ≤ 1 * |((w i).values k).val| :=
      mul_le_mul_of_nonneg_right (hs k).2.2 (abs_nonneg _)
    linarith
  have hS : ∑ k, |(s.values k).val * ((w i).values k).val| ≤ 109.1 := by
    refine le_trans (Finset.sum_le_sum fun k _ => hterm k) ?_
    rw [← Finset.sum_mul]
    linarith
  have hb : ∑ k, |(s.values k).val * ((w i).values k).val| ≤ 2 ^ Fmt.b32.emax / 8 :=
    le_trans hS (by norm_num [Fmt.b32])
  have main : (xyzVec (s.toXyz avx) i).isFinite = true ∧
      |(xyzVec (s.toXyz avx) i).val - ∑ k, (s.values k).val * ((w i).values k).val| ≤
        8 * Fmt.b32.u * ∑ k, |(s.values k).val * ((w i).values k).val| + 41 * Fmt.b32.eta := by
    cases avx with
    | true => exact C81_avx wide_b32 s w i (fun k => (hs k).1) (fun k => (hk k).1) hb
    | false => exact C81_scalar wide_b32 s w i (fun k => (hs k).1) (fun k => (hk k).1) hb
  refine ⟨main.1, ?_⟩
  have hdiff : |∑ k, (s.values k).val * ((w i).values k).val - ∑ k, (s.values k).val * Spec.weights i k|
      ≤ 109 / 16700000 := by
    rw [← Finset.sum_sub_distrib]
    refine le_trans (Finset.abs_sum_le_sum_abs _ _) ?_
    refine le_trans (Finset.sum_le_sum (g := fun k => |Spec.weights i k| / 16700000) fun k _ => ?_) ?_
    · rw [← mul_sub, abs_mul, abs_of_nonneg (hs k).2.1]
      have := mul_le_mul (hs k).2.2 (hk k).2 (abs_nonneg _) (by norm_num : (0:ℚ) ≤ 1)
      linarith
    · rw [← Finset.sum_div]; linarith
  have t1 := abs_sub_le (xyzVec (s.toXyz avx) i).val (∑ k, (s.values k).val * ((w i).values k).val)
    (∑ k, (s.values k).val * Spec.weights i k)
  have hu : Fmt.b32.u = 1 / 2 ^ 24 := by norm_num [Fmt.u, Fmt.b32]
  have he : Fmt.b32.eta ≤ 1 / 2 ^ 100 := by norm_num [Fmt.eta, Fmt.b32, Fmt.emin]
  have m2 := main.2
  rw [hu] at m2
  have : 8 * ((1:ℚ) / 2 ^ 24) * ∑ k, |(s.values k).val * ((w i).values k).val| ≤ 8 * (1 / 2 ^ 24) * 109.1 :=
    mul_le_mul_of_nonneg_left hS (by norm_num)
  norm_num at *
  linarith

/-- Not vacuous: the half-reflecting spectrum meets the hypotheses of all C81 theorems. -/
example : (∀ k, ((SPD.constant (FP.ofQ Fmt.b32 false (1/2))).values k).isFinite = true ∧
    0 ≤ ((SPD.constant (FP.ofQ Fmt.b32 false (1/2))).values k).val ∧
    ((SPD.constant (FP.ofQ Fmt.b32 false (1/2))).values k).val ≤ 1) := by
  intro k
  show (FP.ofQ Fmt.b32 false (1/2)).isFinite = true ∧ 0 ≤ (FP.ofQ Fmt.b32 false (1/2)).val ∧
    (FP.ofQ Fmt.b32 false (1/2)).val ≤ 1
  exact of_decide_eq_true (by krefl)

end CS

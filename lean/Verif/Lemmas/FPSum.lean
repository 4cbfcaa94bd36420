import Verif.Lemmas.FPRound
import Mathlib.Algebra.Order.BigOperators.Group.List

/-!
# Error of floating-point sums

`Near a x S k n`: the float `a` is finite and differs from `x` by at most what `k` roundings and `n`
underflows can do to terms of absolute sum `S`.
-/

namespace CS
variable {f : Fmt}

structure Near (a : FP f) (x S : ℚ) (k n : ℕ) : Prop where
  fin : a.isFinite = true
  abs : |x| ≤ S
  err : |a.val - x| ≤ ((1 + f.u) ^ k - 1) * S + n * (1 + f.u) ^ k * f.eta

theorem one_le_grow (f : Fmt) (k : ℕ) : 1 ≤ (1 + f.u) ^ k :=
  one_le_pow₀ (by linarith [f.u_pos])

theorem grow_mono (f : Fmt) {k l : ℕ} (h : k ≤ l) : (1 + f.u) ^ k ≤ (1 + f.u) ^ l :=
  pow_le_pow_right₀ (by linarith [f.u_pos]) h

theorem Near.nonneg {a : FP f} {x S : ℚ} {k n : ℕ} (h : Near a x S k n) : 0 ≤ S :=
  le_trans (abs_nonneg _) h.abs

theorem Near.mono {a : FP f} {x S : ℚ} {k l n m : ℕ} (h : Near a x S k n) (hk : k ≤ l)
    (hn : n ≤ m) : Near a x S l m := by
  refine ⟨h.fin, h.abs, le_trans h.err ?_⟩
  have h1 := grow_mono f hk
  have h2 := one_le_grow f k
  have h3 : (n:ℚ) ≤ m := by exact_mod_cast hn
  have h4 := f.eta_pos
  have h5 := h.nonneg
  have h6 : (0:ℚ) ≤ m := Nat.cast_nonneg _
  have e1 : ((1 + f.u) ^ k - 1) * S ≤ ((1 + f.u) ^ l - 1) * S :=
    mul_le_mul_of_nonneg_right (by linarith) h5
  have e2 : (n:ℚ) * (1 + f.u) ^ k * f.eta ≤ m * (1 + f.u) ^ l * f.eta :=
    mul_le_mul_of_nonneg_right (mul_le_mul h3 h1 (by linarith) h6) h4.le
  linarith

theorem Near.val_abs {a : FP f} {x S : ℚ} {k n : ℕ} (h : Near a x S k n) :
    |a.val| ≤ (1 + f.u) ^ k * S + n * (1 + f.u) ^ k * f.eta := by
  have t := abs_add_le (a.val - x) x
  rw [sub_add_cancel] at t
  have := h.err
  have := h.abs
  linarith

theorem Near.of_fin {a : FP f} (h : a.isFinite = true) : Near a a.val |a.val| 0 0 :=
  ⟨h, le_rfl, by simp⟩

theorem Near.mul {a b : FP f} (ha : a.isFinite = true) (hb : b.isFinite = true)
    (h : |a.val * b.val| ≤ 2 ^ f.emax) :
    Near (a * b) (a.val * b.val) |a.val * b.val| 1 1 := by
  obtain ⟨h1, h2⟩ := FP.mul_err ha hb h
  refine ⟨h1, le_rfl, le_trans h2 ?_⟩
  have := f.u_pos
  have := f.eta_pos
  rw [pow_one]
  push_cast
  nlinarith

theorem Near.add {a b : FP f} {x y S R : ℚ} {k n m : ℕ} (ha : Near a x S k n) (hb : Near b y R k m)
    (h : (1 + f.u) ^ k * (S + R) + (n + m : ℕ) * (1 + f.u) ^ k * f.eta ≤ 2 ^ f.emax) :
    Near (a + b) (x + y) (S + R) (k + 1) (n + m) := by
  have t := abs_add_le a.val b.val
  have va := ha.val_abs
  have vb := hb.val_abs
  push_cast at h
  have hs : |a.val + b.val| ≤ (1 + f.u) ^ k * (S + R) + (n + m) * (1 + f.u) ^ k * f.eta := by
    linarith
  obtain ⟨h1, h2⟩ := FP.add_err ha.fin hb.fin (le_trans hs h)
  refine ⟨h1, le_trans (abs_add_le x y) (add_le_add ha.abs hb.abs), ?_⟩
  have hu := f.u_pos
  have t2 := abs_add_le ((a + b).val - (a.val + b.val)) ((a.val - x) + (b.val - y))
  rw [show (a + b).val - (a.val + b.val) + (a.val - x + (b.val - y)) = (a + b).val - (x + y) by ring]
    at t2
  have t3 := abs_add_le (a.val - x) (b.val - y)
  have e1 := ha.err
  have e2 := hb.err
  have e3 := mul_le_mul_of_nonneg_right hs hu.le
  push_cast
  rw [pow_succ]
  linarith

theorem Near.congr {a : FP f} {x y S R : ℚ} {k n : ℕ} (h : Near a x S k n) (hx : x = y) (hS : S = R) :
    Near a y R k n := hx ▸ hS ▸ h

/-- adding up a list from the left, starting from a finite value -/
theorem Near.foldl (l : List (FP f)) : ∀ (a : FP f) (x S : ℚ) (k : ℕ), Near a x S k 0 →
    (∀ b ∈ l, b.isFinite = true) →
    (1 + f.u) ^ (k + l.length) * (S + (l.map fun b => |b.val|).sum) ≤ 2 ^ f.emax →
    Near (l.foldl (· + ·) a) (x + (l.map FP.val).sum) (S + (l.map fun b => |b.val|).sum)
      (k + l.length) 0 := by
  induction l with
  | nil => intro a x S k h _ _; simpa using h
  | cons b l ih =>
    intro a x S k h hf hb
    have hS := h.nonneg
    have hsum : 0 ≤ (l.map fun b => |b.val|).sum := List.sum_nonneg (by
      intro z hz; obtain ⟨w, -, rfl⟩ := List.mem_map.1 hz; exact abs_nonneg _)
    simp only [List.map_cons, List.sum_cons, List.length_cons] at hb ⊢
    have hb0 := abs_nonneg b.val
    have key : (1 + f.u) ^ k * (S + |b.val|) ≤ 2 ^ f.emax := by
      refine le_trans ?_ hb
      have h1 := grow_mono f (show k ≤ k + (l.length + 1) by omega)
      have h2 := one_le_grow f k
      exact mul_le_mul h1 (by linarith) (by linarith) (by linarith)
    have h' := h.add ((Near.of_fin (hf b (List.mem_cons_self ..))).mono (Nat.zero_le k) le_rfl)
      (by simpa using key)
    have := ih (a + b) _ _ (k + 1) h' (fun c hc => hf c (List.mem_cons_of_mem _ hc)) (by
      rw [show k + 1 + l.length = k + (l.length + 1) by omega, add_assoc]; exact hb)
    rw [show k + 1 + l.length = k + (l.length + 1) by omega] at this
    exact this.congr (by ring) (by ring)

/-! ### Compensated summation -/

/-- one step of the compensated sum of scalars, spd.rs:98-108 -/
def kahan1 (st : FP f × FP f) (x : FP f) : FP f × FP f :=
  let y := x - st.2
  let t := st.1 + y
  (t, (t - st.1) - y)

/-- One step: with `A` bounding the terms, the sum less the compensation gains the term up to
`2.1 u |x| + 14 u² A`. -/
theorem kahan_step (hu : f.u ≤ 1 / 2 ^ 20) {s c x : FP f} {A : ℚ} (hs : s.isFinite = true)
    (hc : c.isFinite = true) (hx : x.isFinite = true) (bs : |s.val| ≤ 1.1 * A)
    (bc : |c.val| ≤ 4 * f.u * A) (bx : |x.val| ≤ A) (hA : 4 * A ≤ 2 ^ f.emax) :
    (kahan1 (s, c) x).1.isFinite = true ∧ (kahan1 (s, c) x).2.isFinite = true ∧
    |(kahan1 (s, c) x).2.val| ≤ 4 * f.u * A ∧
    |((kahan1 (s, c) x).1.val - (kahan1 (s, c) x).2.val) - (s.val - c.val + x.val)|
      ≤ 2.1 * f.u * |x.val| + 14 * f.u ^ 2 * A := by
  have hu0 := f.u_pos
  have hA0 : 0 ≤ A := le_trans (abs_nonneg _) bx
  have hX := abs_nonneg x.val
  have uA : f.u * A ≤ A / 2 ^ 20 := by
    have := mul_le_mul_of_nonneg_right hu hA0; linarith
  have uX : f.u * |x.val| ≤ |x.val| / 2 ^ 20 := by
    have := mul_le_mul_of_nonneg_right hu hX; linarith
  have uuA : f.u * (f.u * A) ≤ f.u * A / 2 ^ 20 := by
    have := mul_le_mul_of_nonneg_right hu (mul_nonneg hu0.le hA0); linarith
  have uuX : f.u * (f.u * |x.val|) ≤ f.u * |x.val| / 2 ^ 20 := by
    have := mul_le_mul_of_nonneg_right hu (mul_nonneg hu0.le hX); linarith
  have uA0 : 0 ≤ f.u * A := by positivity
  have uX0 : 0 ≤ f.u * |x.val| := by positivity
  simp only [kahan1]
  -- y = x - c
  have b1 : |x.val - c.val| ≤ |x.val| + 4 * (f.u * A) := by
    have := abs_sub x.val c.val; linarith
  obtain ⟨fy, ey⟩ := FP.sub_err hx hc (by linarith)
  set y := x - c
  have ey' : |y.val - (x.val - c.val)| ≤ f.u * |x.val| + 4 * (f.u * (f.u * A)) := by
    have := mul_le_mul_of_nonneg_right b1 hu0.le; linarith
  have by' : |y.val| ≤ |x.val| + f.u * |x.val| + 4.1 * (f.u * A) := by
    have t := abs_add_le (y.val - (x.val - c.val)) (x.val - c.val)
    rw [sub_add_cancel] at t; linarith
  -- t = s + y
  have b2 : |s.val + y.val| ≤ 2.2 * A := by
    have := abs_add_le s.val y.val; linarith
  obtain ⟨ft, et⟩ := FP.add_err hs fy (by linarith)
  set t := s + y
  have et' : |t.val - (s.val + y.val)| ≤ 2.2 * (f.u * A) := by
    have := mul_le_mul_of_nonneg_right b2 hu0.le; linarith
  -- d = t - s
  have b3 : |t.val - s.val| ≤ |x.val| + f.u * |x.val| + 6.3 * (f.u * A) := by
    have t1 := abs_add_le (t.val - (s.val + y.val)) y.val
    rw [show t.val - (s.val + y.val) + y.val = t.val - s.val by ring] at t1
    linarith
  obtain ⟨fd, ed⟩ := FP.sub_err ft hs (by linarith)
  set d := t - s
  have ed' : |d.val - (t.val - s.val)| ≤ f.u * |x.val| + f.u * (f.u * |x.val|)
      + 6.3 * (f.u * (f.u * A)) := by
    have := mul_le_mul_of_nonneg_right b3 hu0.le; linarith
  -- c' = d - y
  have b4 : |d.val - y.val| ≤ 2.2 * (f.u * A) + (f.u * |x.val| + f.u * (f.u * |x.val|)
      + 6.3 * (f.u * (f.u * A))) := by
    have t1 := abs_add_le (d.val - (t.val - s.val)) (t.val - (s.val + y.val))
    rw [show d.val - (t.val - s.val) + (t.val - (s.val + y.val)) = d.val - y.val by ring] at t1
    linarith
  have uxA : f.u * |x.val| ≤ f.u * A := mul_le_mul_of_nonneg_left bx hu0.le
  have b4' : |d.val - y.val| ≤ 3.3 * (f.u * A) := by linarith
  obtain ⟨fc, ec⟩ := FP.sub_err fd fy (by linarith)
  set c' := d - y
  have ec' : |c'.val - (d.val - y.val)| ≤ 3.3 * (f.u * (f.u * A)) := by
    have := mul_le_mul_of_nonneg_right b4' hu0.le; linarith
  refine ⟨ft, fc, ?_, ?_⟩
  · have t1 := abs_add_le (c'.val - (d.val - y.val)) (d.val - y.val)
    rw [sub_add_cancel] at t1; linarith
  · have e : t.val - c'.val - (s.val - c.val + x.val)
        = -(c'.val - (d.val - y.val)) - (d.val - (t.val - s.val)) + (y.val - (x.val - c.val)) := by ring
    have t1 := abs_add_le (-(c'.val - (d.val - y.val)) - (d.val - (t.val - s.val)))
      (y.val - (x.val - c.val))
    have t2 := abs_sub (-(c'.val - (d.val - y.val))) (d.val - (t.val - s.val))
    rw [abs_neg] at t2
    rw [e]
    have : f.u ^ 2 * A = f.u * (f.u * A) := by ring
    have h14 : 14 * f.u ^ 2 * A = 14 * (f.u * (f.u * A)) := by ring
    have hx21 : 2.1 * f.u * |x.val| = 2.1 * (f.u * |x.val|) := by ring
    have uuA0 : 0 ≤ f.u * (f.u * A) := by positivity
    rw [h14, hx21]
    linarith

/-- The whole compensated sum: at most `6.2 u` times the sum of absolute values, for up to `2^12`
terms. -/
theorem kahan_sum (hu : f.u ≤ 1 / 2 ^ 20) {A : ℚ} (hA : 4 * A ≤ 2 ^ f.emax) (l : List (FP f)) :
    ∀ (s c : FP f) (E P : ℚ) (n : ℕ), s.isFinite = true → c.isFinite = true →
    (∀ x ∈ l, x.isFinite = true) → |c.val| ≤ 4 * f.u * A → 0 ≤ P → |E| ≤ P →
    |s.val - c.val - E| ≤ 2.1 * f.u * P + n * (14 * f.u ^ 2 * A) →
    P + (l.map fun x => |x.val|).sum ≤ A → n + l.length ≤ 2 ^ 12 →
    (l.foldl kahan1 (s, c)).1.isFinite = true ∧
    |(l.foldl kahan1 (s, c)).1.val - (E + (l.map FP.val).sum)| ≤ 6.2 * f.u * A := by
  have hu0 := f.u_pos
  induction l with
  | nil =>
    intro s c E P n hs hc _ bc hP hE he hPA hn
    simp only [List.map_nil, List.sum_nil, add_zero, List.foldl_nil, List.length_nil] at *
    refine ⟨hs, ?_⟩
    have hA0 : 0 ≤ A := le_trans hP hPA
    have hn' : (n:ℚ) ≤ 2 ^ 12 := by exact_mod_cast hn
    have uA0 : 0 ≤ f.u * A := by positivity
    have u2 : f.u ^ 2 * A ≤ f.u * A / 2 ^ 20 := by
      have := mul_le_mul_of_nonneg_right hu uA0
      rw [sq, mul_assoc]; linarith
    have u20 : 0 ≤ f.u ^ 2 * A := by positivity
    have n2 : n * (14 * f.u ^ 2 * A) ≤ 2 ^ 12 * (14 * (f.u ^ 2 * A)) := by
      rw [mul_assoc 14]; exact mul_le_mul_of_nonneg_right hn' (by linarith)
    have uP : f.u * P ≤ f.u * A := mul_le_mul_of_nonneg_left hPA hu0.le
    have t := abs_add_le (s.val - c.val - E) c.val
    rw [show s.val - c.val - E + c.val = s.val - E by ring] at t
    nlinarith
  | cons x l ih =>
    intro s c E P n hs hc hl bc hP hE he hPA hn
    simp only [List.map_cons, List.sum_cons, List.foldl_cons, List.length_cons] at *
    have hsum : 0 ≤ (l.map fun b => |b.val|).sum := List.sum_nonneg (by
      intro z hz; obtain ⟨w, -, rfl⟩ := List.mem_map.1 hz; exact abs_nonneg _)
    have hX := abs_nonneg x.val
    have hA0 : 0 ≤ A := by linarith
    have hn' : (n:ℚ) ≤ 2 ^ 12 := by
      have : n ≤ 2 ^ 12 := by omega
      exact_mod_cast this
    have uA0 : 0 ≤ f.u * A := by positivity
    have uA : f.u * A ≤ A / 2 ^ 20 := by
      have := mul_le_mul_of_nonneg_right hu hA0; linarith
    have u2 : f.u ^ 2 * A ≤ f.u * A / 2 ^ 20 := by
      have := mul_le_mul_of_nonneg_right hu uA0
      rw [sq, mul_assoc]; linarith
    have u20 : 0 ≤ f.u ^ 2 * A := by positivity
    have n2 : n * (14 * f.u ^ 2 * A) ≤ 2 ^ 12 * (14 * (f.u ^ 2 * A)) := by
      rw [mul_assoc 14]; exact mul_le_mul_of_nonneg_right hn' (by linarith)
    have hPA' : P ≤ A := by linarith
    have uP : f.u * P ≤ f.u * A := mul_le_mul_of_nonneg_left hPA' hu0.le
    have bs : |s.val| ≤ 1.1 * A := by
      have t := abs_add_le (s.val - c.val - E) (c.val + E)
      rw [show s.val - c.val - E + (c.val + E) = s.val by ring] at t
      have t2 := abs_add_le c.val E
      nlinarith
    obtain ⟨g1, g2, g3, g4⟩ := kahan_step hu hs hc (hl x (List.mem_cons_self ..)) bs bc
      (by linarith) hA
    have := ih (kahan1 (s, c) x).1 (kahan1 (s, c) x).2 (E + x.val) (P + |x.val|) (n + 1) g1 g2
      (fun z hz => hl z (List.mem_cons_of_mem _ hz)) g3 (by linarith)
      (le_trans (abs_add_le _ _) (by linarith)) (by
        have t := abs_add_le ((kahan1 (s, c) x).1.val - (kahan1 (s, c) x).2.val
          - (s.val - c.val + x.val)) (s.val - c.val - E)
        rw [show (kahan1 (s, c) x).1.val - (kahan1 (s, c) x).2.val - (s.val - c.val + x.val)
          + (s.val - c.val - E) = (kahan1 (s, c) x).1.val - (kahan1 (s, c) x).2.val - (E + x.val)
          by ring] at t
        push_cast
        linarith) (by linarith) (by omega)
    rw [add_assoc] at this
    exact this

end CS

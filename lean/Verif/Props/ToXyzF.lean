import Verif.Props.GridF
import Verif.Lemmas.FPIntegrate

/-!
# Spectrum to XYZ in floating point (C91)
-/

namespace CS

section
variable {f : Fmt} [Libm f]

/-- a spectrum at whole wavelengths with values up to `V`, loaded with values off by a few roundings, whose
range meets 360..780 nm -/
structure Spec.Loaded (V : ℝ) (s : VSPD (FP f)) (S : VSPD ℝ) : Prop where
  lo : 1 / 2 ^ 16 ≤ V
  hi : V ≤ 2 ^ 16
  tracks : Spec.Tracks (4 * f.u * V) s S
  grid : Spec.WholeGrid S
  bound : ∀ p ∈ S.samples, |p.v| ≤ V
  overlap : max (360 : ℝ) S.shape.start ≤ min (780 : ℝ) S.shape.end

theorem WholeGrid.spans {S : VSPD ℝ} (h : Spec.WholeGrid S)
    (hov : max (360 : ℝ) S.shape.start ≤ min (780 : ℝ) S.shape.end) : Spans S 360 780 1 := by
  obtain ⟨a, z, -, -, ea, ez⟩ := WholeGrid.bounds h
  have six := h.six
  refine ⟨by omega, h.asc, h.start, h.stop, hov, ?_, ?_⟩
  · rcases Nat.le_total a 360 with h' | h'
    · left; rw [ea]; exact_mod_cast h'
    · right
      refine ⟨a - 360, ?_⟩
      rw [ea, Nat.cast_sub h']; push_cast; ring
  · by_cases h' : 780 ≤ z
    · left; rw [ez]; exact_mod_cast h'
    · right
      have h3 : 360 ≤ z := by
        have : (360:ℝ) ≤ z := by rw [← ez]; exact (le_max_left _ _).trans (hov.trans (min_le_right _ _))
        exact_mod_cast this
      refine ⟨z - 360, ?_⟩
      rw [ez, Nat.cast_sub h3]; push_cast; ring

/-- resampled values are at most 89/64 of the largest -/
theorem resampled_abs {S : VSPD ℝ} (h : Spec.WholeGrid S) {V : ℝ} (hv : ∀ p ∈ S.samples, |p.v| ≤ V) (x : ℝ) :
    |resampled S x| ≤ 89 / 64 * V := by
  have six := h.six
  have h0 : S.samples.head? = some (S.samples[0]) := by
    rw [List.head?_eq_getElem?]; exact List.getElem?_eq_getElem (by omega)
  have hz : S.samples.getLast? = some (S.samples[S.samples.length - 1]) := by
    rw [List.getLast?_eq_getElem?]; exact List.getElem?_eq_getElem (by omega)
  have e1 := h.start
  have e2 := h.stop
  rw [h0] at e1
  rw [hz] at e2
  simp only [Option.map_some, Option.some.injEq] at e1 e2
  have hlt : S.samples[0].nm < S.samples[S.samples.length - 1].nm := by
    have := List.pairwise_iff_getElem.1 h.asc 0 (S.samples.length - 1) (by simp [VSPD.wavelengths]; omega)
      (by simp [VSPD.wavelengths]; omega) (by omega)
    simpa [VSPD.wavelengths] using this
  obtain ⟨v, hv1, hv2⟩ := C88_bound S _ _ six h0 hz h.asc V hv (max S.shape.start (min x S.shape.end))
    (by rw [e1]; exact le_max_left _ _)
    (by rw [e2]; exact max_le (by rw [← e1, ← e2]; exact hlt.le) (min_le_right _ _))
  unfold resampled
  rw [hv1]
  exact hv2

/-- a table at 360..780 is at whole wavelengths -/
theorem table_whole (S : VSPD ℝ) : Spec.WholeGrid (table S) := by
  have hl : (table S).samples.length = 421 := onGrid_length ..
  refine ⟨by rw [hl]; norm_num, ?_, onGrid_asc _ _ _ _ _ one_pos, ?_, ?_⟩
  · intro p hp
    obtain ⟨k, hk, rfl⟩ := List.mem_map.1 hp
    refine ⟨360 + k, by have := List.mem_range.1 hk; omega, ?_⟩
    push_cast; ring
  · rw [List.head?_eq_getElem?, onGrid_get _ _ _ _ _ _ (by omega)]
    simp [onGrid, SpdShape.new]
  · rw [List.getLast?_eq_getElem?, hl, onGrid_get _ _ _ _ _ _ (by omega)]
    simp [onGrid, SpdShape.new]
    norm_num

theorem table_bound {S : VSPD ℝ} (h : Spec.WholeGrid S) {V : ℝ} (hv : ∀ p ∈ S.samples, |p.v| ≤ V) :
    ∀ p ∈ (table S).samples, |p.v| ≤ 89 / 64 * V := by
  intro p hp
  obtain ⟨k, hk, rfl⟩ := List.mem_map.1 hp
  exact resampled_abs h hv _

/-- the shape 360..780 with a whole interval -/
theorem shape_same (hf : Std f) (m : ℕ) (hm : 0 < m) (hm' : m ≤ 2 ^ 20) (q : ℚ) (hq : q = m) (q7 : ℚ) (h7 : q7 = (780 : ℕ)) :
    Spec.SameShape (⟨Flt.lit 360.0, Flt.lit q7, .uniform (Flt.lit q)⟩ : SpdShape (FP f))
      (SpdShape.new ((360 : ℕ) : ℝ) ((780 : ℕ) : ℝ) m) :=
  ⟨(Whole.lit hf 360 (by norm_num) (by norm_num) _ (by norm_num)).sameNum,
    (Whole.lit hf 780 (by norm_num) (by norm_num) _ h7).sameNum,
    (Whole.lit hf m hm (hm'.trans (by norm_num)) _ hq).sameNum⟩

/-- the first `align`, to every nanometre -/
theorem align_first (hf : Std f) (hp : PowiAccurate f) {V : ℝ} {s : VSPD (FP f)} {S : VSPD ℝ}
    (h : Spec.Loaded V s S) {fuel : ℕ} {R : VSPD ℝ} (m : ℕ) (hm : 0 < m) (hm' : m ≤ 2 ^ 20) {sh : SpdShape (FP f)}
    (hsh : Spec.SameShape sh (SpdShape.new ((360 : ℕ) : ℝ) ((780 : ℕ) : ℝ) m))
    (hal : S.align fuel (SpdShape.new ((360 : ℕ) : ℝ) ((780 : ℕ) : ℝ) m) = .ok R) :
    ∃ r, s.align fuel sh = .ok r ∧ Spec.Tracks (8950 * f.u * V) r R := by
  obtain ⟨u0, u1, -⟩ := hf.u_bounds
  have V0 : 0 < V := lt_of_lt_of_le (by positivity) h.lo
  have hlo := h.lo
  have hhi := h.hi
  have huV : f.u * V ≤ 1 / 2 ^ 24 * V := mul_le_mul_of_nonneg_right u1 V0.le
  obtain ⟨r, r1, r2⟩ := C90_align_follows hf hp s S R _ h.tracks h.grid (V * (1 + 1 / 2 ^ 20))
    (by norm_num at hlo ⊢; linarith) (by norm_num at hhi ⊢; linarith)
    (by
      intro p hp
      have := h.bound p hp
      norm_num at huV ⊢; linarith) sh 360 780 m hm (by norm_num) hm' hsh
    (by have := h.overlap; push_cast; exact this) fuel hal
  refine ⟨r, r1, r2.samples.imp fun p q t => ⟨t.1, t.2, t.3, t.4.trans ?_⟩, r2.shape⟩
  have : 0 ≤ f.u * V := by positivity
  have e : 8940 * (f.u : ℝ) * (V * (1 + 1 / 2 ^ 20)) + 89 / 64 * (4 * f.u * V) =
    (8940 * (1 + 1 / 2 ^ 20) + 89 / 16) * (f.u * V) := by ring
  rw [e, mul_assoc]
  exact mul_le_mul_of_nonneg_right (by norm_num) this

/-- the second `align`, of a table -/
theorem align_second (hf : Std f) (hp : PowiAccurate f) {V : ℝ} {t : VSPD (FP f)} {S : VSPD ℝ}
    (hg : Spec.WholeGrid S) (hv : ∀ p ∈ S.samples, |p.v| ≤ V) (hlo : 1 / 2 ^ 16 ≤ V) (hhi : V ≤ 2 ^ 16)
    (h : Spec.Tracks (8950 * f.u * V) t (table S)) {fuel : ℕ} {R : VSPD ℝ} (m : ℕ) (hm : 0 < m)
    (hm' : m ≤ 2 ^ 20) {sh : SpdShape (FP f)}
    (hsh : Spec.SameShape sh (SpdShape.new ((360 : ℕ) : ℝ) ((780 : ℕ) : ℝ) m))
    (hal : (table S).align fuel (SpdShape.new ((360 : ℕ) : ℝ) ((780 : ℕ) : ℝ) m) = .ok R) :
    ∃ r, t.align fuel sh = .ok r ∧ Spec.Tracks (24900 * f.u * V) r R := by
  obtain ⟨u0, u1, -⟩ := hf.u_bounds
  have V0 : 0 < V := lt_of_lt_of_le (by positivity) hlo
  have huV : f.u * V ≤ 1 / 2 ^ 24 * V := mul_le_mul_of_nonneg_right u1 V0.le
  obtain ⟨r, r1, r2⟩ := C90_align_follows hf hp t (table S) R _ h (table_whole S) (1.3912 * V)
    (by norm_num at hlo ⊢; linarith) (by norm_num at hhi ⊢; linarith)
    (by
      intro p hp
      have := table_bound hg hv p hp
      norm_num at huV this ⊢; linarith) sh 360 780 m hm (by norm_num) hm' hsh
    (by
      show max ((360 : ℕ) : ℝ) 360 ≤ min ((780 : ℕ) : ℝ) 780
      norm_num) fuel hal
  refine ⟨r, r1, r2.samples.imp fun p q t => ⟨t.1, t.2, t.3, t.4.trans ?_⟩, r2.shape⟩
  have : 0 ≤ f.u * V := by positivity
  have e : 8940 * (f.u : ℝ) * (1.3912 * V) + 89 / 64 * (8950 * f.u * V) =
    (8940 * 1.3912 + 89 / 64 * 8950) * (f.u * V) := by ring
  rw [e, mul_assoc]
  exact mul_le_mul_of_nonneg_right (by norm_num) this

/-- the values of a tracked spectrum -/
theorem Spec.Tracks.values {k V M : ℝ} {s : VSPD (FP f)} {S : VSPD ℝ} (h : Spec.Tracks (k * f.u * V) s S)
    (hM : ∀ p ∈ S.samples, |p.v| ≤ M * V) : List.Forall₂ (fun a X => Tr V a X M k) s.values S.values := by
  show List.Forall₂ _ (s.samples.map _) (S.samples.map _)
  rw [List.forall₂_map_left_iff, List.forall₂_map_right_iff]
  have hs := h.samples
  revert hM
  generalize s.samples = l at *
  generalize S.samples = L at *
  intro hM
  induction hs with
  | nil => exact .nil
  | cons h' _ ih =>
    refine .cons ⟨h'.v_fin, hM _ (List.mem_cons_self ..), by rw [← mul_assoc]; exact h'.v⟩ (ih fun p hp => ?_)
    exact hM p (List.mem_cons_of_mem _ hp)

theorem zip_sim {α α' β β' : Type} {R : α → α' → Prop} {Q : β → β' → Prop} {l : List α} {L : List α'}
    (h : List.Forall₂ R l L) : ∀ {m : List β} {M : List β'}, List.Forall₂ Q m M →
      List.Forall₂ (fun p P => R p.1 P.1 ∧ Q p.2 P.2) (l.zip m) (L.zip M) := by
  induction h with
  | nil => intro m M _; simp
  | cons h _ ih =>
    intro m M h'
    cases h' with
    | nil => simp
    | cons h1 h2 => exact .cons ⟨h, h1⟩ (ih h2)


/-- `toUsize` of a whole number -/
theorem Whole.usize {x : FP f} {n : ℕ} (hx : Whole x n) (h : n ≤ 2 ^ 24) : FP.toUsize x = some n := by
  have h0 : ((2 ^ 24 : ℕ) : ℚ) < 2 ^ 64 := by norm_num
  have hn : (n : ℚ) ≤ ((2 ^ 24 : ℕ) : ℚ) := by exact_mod_cast h
  have hv := hx.val
  have hfin := hx.fin
  cases x with
  | fin q hq =>
    simp only [FP.val] at hv
    subst hv
    unfold FP.toUsize
    simp only
    rw [if_pos ⟨by linarith [(Nat.cast_nonneg n : (0:ℚ) ≤ n)], by linarith⟩]
    simp
  | nzero =>
    simp only [FP.val] at hv
    have : n = 0 := by exact_mod_cast hv.symm
    subst this; rfl
  | _ => simp [FP.isFinite] at hfin

/-- a float within `B` of an exact number -/
def Spec.CloseTo (B : ℝ) (x : FP f) (X : ℝ) : Prop := x.isFinite = true ∧ |(x.val : ℝ) - X| ≤ B

/-- the sums, their quotient and the exact ones -/
theorem integration_sim (hf : Std f) {Vs Vi Vc κ : ℝ} (hs1 : 1 / 2 ^ 16 ≤ Vs) (hs2 : Vs ≤ 2 ^ 16)
    (hi1 : 1 / 2 ^ 16 ≤ Vi) (hi2 : Vi ≤ 2 ^ 16) (hc1 : 1 / 2 ^ 16 ≤ Vc) (hc2 : Vc ≤ 2 ^ 16)
    {n m : ℕ} (hm : 0 < m) (hm5 : m ≤ 5) (hn0 : 0 < n) (hn : n ≤ 421) {dw : FP f} (hdw : Whole dw m)
    {sp il cy c : List (FP f)} {SP IL CY C : List ℝ}
    (hsp : List.Forall₂ (fun a X => Tr Vs a X (89 / 64) 8950) sp SP)
    (hil : List.Forall₂ (fun a X => Tr Vi a X (89 / 64) 24900) il IL)
    (hcy : List.Forall₂ (fun a X => Tr Vc a X (89 / 64) 24900) cy CY)
    (hc : List.Forall₂ (fun a X => Tr Vc a X (89 / 64) 24900) c C) (hl : IL.length ≤ n)
    (hκ0 : 0 < κ) (hκ : n * (Vi * Vc) ≤ κ * ((IL.zip CY).map fun p => p.1 * p.2).sum) (hκ' : κ ≤ 2 ^ 20)
    (hκu : κ * 10 ^ 6 * f.u ≤ 1) (X : ℝ)
    (hX : X = 100 / fsum ((IL.zip CY).map fun p => p.1 * p.2 * (m : ℝ)) *
      fsum ((SP.zip (IL.zip C)).map fun p => p.1 * p.2.1 * p.2.2 * (m : ℝ))) :
    Spec.CloseTo ((1.4e7 * Vs + 8e4 * |X|) * κ * f.u)
      (Flt.lit 100.0 / fsum ((il.zip cy).map fun p => p.1 * p.2 * dw) *
        fsum ((sp.zip (il.zip c)).map fun p => p.1 * p.2.1 * p.2.2 * dw)) X := by
  obtain ⟨u0, u1, -⟩ := hf.u_bounds
  have p1 : 0 < Vs := lt_of_lt_of_le (by positivity) hs1
  have p2 : 0 < Vi := lt_of_lt_of_le (by positivity) hi1
  have p3 : 0 < Vc := lt_of_lt_of_le (by positivity) hc1
  have m1 : (1:ℝ) ≤ m := by exact_mod_cast hm
  have m5 : (m:ℝ) ≤ 5 := by exact_mod_cast hm5
  have n1 : (1:ℝ) ≤ n := by exact_mod_cast hn0
  have n4 : (n:ℝ) ≤ 421 := by exact_mod_cast hn
  have b1 : 1 / 2 ^ 32 ≤ Vi * Vc := by
    calc (1:ℝ) / 2 ^ 32 = 1 / 2 ^ 16 * (1 / 2 ^ 16) := by norm_num
      _ ≤ _ := mul_le_mul hi1 hc1 (by positivity) p2.le
  have b2 : Vi * Vc ≤ 2 ^ 32 := by
    calc _ ≤ (2:ℝ) ^ 16 * 2 ^ 16 := mul_le_mul hi2 hc2 p3.le (by positivity)
      _ = _ := by norm_num
  have b1m : 1 / 2 ^ 32 ≤ Vi * Vc * m := b1.trans (le_mul_of_one_le_right (by positivity) m1)
  have b2m : Vi * Vc * m ≤ 2 ^ 32 * 5 := mul_le_mul b2 m5 (by positivity) (by positivity)
  have c1 : 1 / 2 ^ 32 ≤ Vs * Vi := by
    calc (1:ℝ) / 2 ^ 32 = 1 / 2 ^ 16 * (1 / 2 ^ 16) := by norm_num
      _ ≤ _ := mul_le_mul hs1 hi1 (by positivity) p1.le
  have c2 : Vs * Vi ≤ 2 ^ 32 := by
    calc _ ≤ (2:ℝ) ^ 16 * 2 ^ 16 := mul_le_mul hs2 hi2 p2.le (by positivity)
      _ = _ := by norm_num
  have d1 : 1 / 2 ^ 48 ≤ Vs * Vi * Vc := by
    calc (1:ℝ) / 2 ^ 48 = 1 / 2 ^ 32 * (1 / 2 ^ 16) := by norm_num
      _ ≤ _ := mul_le_mul c1 hc1 (by positivity) (by positivity)
  have d2 : Vs * Vi * Vc ≤ 2 ^ 48 := by
    calc _ ≤ (2:ℝ) ^ 32 * 2 ^ 16 := mul_le_mul c2 hc2 p3.le (by positivity)
      _ = _ := by norm_num
  have d1m : 1 / 2 ^ 48 ≤ Vs * Vi * Vc * m := d1.trans (le_mul_of_one_le_right (by positivity) m1)
  have d2m : Vs * Vi * Vc * m ≤ 2 ^ 48 * 5 := mul_le_mul d2 m5 (by positivity) (by positivity)
  have S1 : Scale (Vi * Vc) := ⟨by norm_num at b1 ⊢; linarith, by norm_num at b2 ⊢; linarith⟩
  have S2 : Scale (Vi * Vc * m) := ⟨by norm_num at b1m ⊢; linarith, by norm_num at b2m ⊢; linarith⟩
  have S3 : Scale (Vs * Vi) := ⟨by norm_num at c1 ⊢; linarith, by norm_num at c2 ⊢; linarith⟩
  have S4 : Scale (Vs * Vi * Vc) := ⟨by norm_num at d1 ⊢; linarith, by norm_num at d2 ⊢; linarith⟩
  have S5 : Scale (Vs * Vi * Vc * m) := ⟨by norm_num at d1m ⊢; linarith, by norm_num at d2m ⊢; linarith⟩
  have hw : Tr (m : ℝ) dw (m : ℝ) 1 0 := ⟨hdw.fin, by rw [one_mul, abs_of_nonneg (by linarith)],
    by rw [hdw.real]; simp⟩
  have m0 : (0:ℝ) < m := by linarith
  have hden : List.Forall₂ (fun a X => Tr (Vi * Vc * m) a X (89 / 64 * (89 / 64) * 1) 69300)
      ((il.zip cy).map fun p => p.1 * p.2 * dw) ((IL.zip CY).map fun p => p.1 * p.2 * (m : ℝ)) := by
    rw [List.forall₂_map_left_iff, List.forall₂_map_right_iff]
    refine (zip_sim hil hcy).imp fun a b h => ?_
    have t1 := Tr.mul hf p2 p3 S1 h.1 h.2 (K := 69294)
    exact Tr.mul hf (by positivity) m0 S2 t1 hw
  have hnum : List.Forall₂ (fun a X => Tr (Vs * Vi * Vc * m) a X (89 / 64 * (89 / 64) * (89 / 64) * 1) 113810)
      ((sp.zip (il.zip c)).map fun p => p.1 * p.2.1 * p.2.2 * dw)
      ((SP.zip (IL.zip C)).map fun p => p.1 * p.2.1 * p.2.2 * (m : ℝ)) := by
    rw [List.forall₂_map_left_iff, List.forall₂_map_right_iff]
    refine (zip_sim hsp (zip_sim hil hc)).imp fun a b h => ?_
    have t1 := Tr.mul hf p1 p2 S3 h.1 h.2.1 (K := 47100)
    have t2 := Tr.mul hf (by positivity) p3 S4 t1 h.2.2 (K := 113800)
    exact Tr.mul hf (by positivity) m0 S5 t2 hw
  have hlil : il.length = IL.length := hil.length_eq
  obtain ⟨e1, e2, e3⟩ := fsum_tr hf S2 (by norm_num) (by norm_num) (by norm_num) (by norm_num) hden n
    (by simp only [List.length_map, List.length_zip]; omega) (by omega)
  obtain ⟨g1, g2, g3⟩ := fsum_tr hf S5 (by norm_num) (by norm_num) (by norm_num) (by norm_num) hnum n
    (by simp only [List.length_map, List.length_zip]; omega) (by omega)
  rw [fsum_eq, fsum_eq] at hX
  have hDm : ((IL.zip CY).map fun p => p.1 * p.2 * (m : ℝ)).sum =
      ((IL.zip CY).map fun p => p.1 * p.2).sum * m := by
    rw [← List.sum_map_mul_right]
  have hu : (0:ℝ) ≤ n * (f.u * (Vi * Vc * m)) := by positivity
  have hu' : (0:ℝ) ≤ n * (f.u * (Vs * Vi * Vc * m)) := by positivity
  have hM1 : (0:ℝ) ≤ n * (Vi * Vc * m) := by positivity
  have hM2 : (0:ℝ) ≤ n * (Vs * Vi * Vc * m) := by positivity
  have := ratio_err hf (D := ((IL.zip CY).map fun p => p.1 * p.2 * (m : ℝ)).sum)
    (N := ((SP.zip (IL.zip C)).map fun p => p.1 * p.2.1 * p.2.2 * (m : ℝ)).sum) (A := n * (Vi * Vc * m))
    (Vs := Vs) (κ := κ) e1 g1
    (e2.trans (by
      calc (n:ℝ) * ((69300 + 1.001 * n * (89 / 64 * (89 / 64) * 1 + 69300 / 2 ^ 24)) * (f.u * (Vi * Vc * m))) =
            (69300 + 1.001 * n * (89 / 64 * (89 / 64) * 1 + 69300 / 2 ^ 24)) * (n * (f.u * (Vi * Vc * m))) := by ring
        _ ≤ 70200 * (n * (f.u * (Vi * Vc * m))) := mul_le_mul_of_nonneg_right (by norm_num; linarith) hu
        _ = _ := by ring))
    (g2.trans (by
      calc (n:ℝ) * ((113810 + 1.001 * n * (89 / 64 * (89 / 64) * (89 / 64) * 1 + 113810 / 2 ^ 24)) *
            (f.u * (Vs * Vi * Vc * m))) =
            (113810 + 1.001 * n * (89 / 64 * (89 / 64) * (89 / 64) * 1 + 113810 / 2 ^ 24)) *
              (n * (f.u * (Vs * Vi * Vc * m))) := by ring
        _ ≤ 115000 * (n * (f.u * (Vs * Vi * Vc * m))) := mul_le_mul_of_nonneg_right (by norm_num; linarith) hu'
        _ = _ := by ring))
    (g3.trans (by
      calc (n:ℝ) * (89 / 64 * (89 / 64) * (89 / 64) * 1 * (Vs * Vi * Vc * m)) =
            89 / 64 * (89 / 64) * (89 / 64) * 1 * (n * (Vs * Vi * Vc * m)) := by ring
        _ ≤ 2.69 * (n * (Vs * Vi * Vc * m)) := mul_le_mul_of_nonneg_right (by norm_num) hM2
        _ = _ := by ring))
    ((le_abs_self _).trans (e3.trans (by
      calc (n:ℝ) * (89 / 64 * (89 / 64) * 1 * (Vi * Vc * m)) =
            89 / 64 * (89 / 64) * 1 * (n * (Vi * Vc * m)) := by ring
        _ ≤ 1.94 * (n * (Vi * Vc * m)) := mul_le_mul_of_nonneg_right (by norm_num) hM1)))
    (b1m.trans (le_mul_of_one_le_left (by positivity) n1))
    (by
      calc (n:ℝ) * (Vi * Vc * m) ≤ 421 * (2 ^ 32 * 5) := mul_le_mul n4 b2m (by positivity) (by positivity)
        _ ≤ _ := by norm_num)
    hs1 hs2 hκ0
    (by
      rw [hDm]
      calc (n:ℝ) * (Vi * Vc * m) = n * (Vi * Vc) * m := by ring
        _ ≤ _ := mul_le_mul_of_nonneg_right hκ m0.le
        _ = _ := by ring) hκ' hκu
  rw [← hX] at this
  exact this

/-- each channel within `(1.4e7 V + 8e4 |exact|) κ u` of the exact one -/
structure Spec.XyzNear (V κ : ℝ) (r : XYZ (FP f)) (R : XYZ ℝ) : Prop where
  x : Spec.CloseTo ((1.4e7 * V + 8e4 * |R.x|) * κ * f.u) r.x R.x
  y : Spec.CloseTo ((1.4e7 * V + 8e4 * |R.y|) * κ * f.u) r.y R.y
  z : Spec.CloseTo ((1.4e7 * V + 8e4 * |R.z|) * κ * f.u) r.z R.z

theorem onGrid_bound {S : VSPD ℝ} (h : Spec.WholeGrid S) {V : ℝ} (hv : ∀ p ∈ S.samples, |p.v| ≤ V)
    (lo hi i : ℝ) (n : ℕ) : ∀ p ∈ (onGrid lo hi i n (resampled S)).samples, |p.v| ≤ 89 / 64 * V := by
  intro p hp
  obtain ⟨k, hk, rfl⟩ := List.mem_map.1 hp
  exact resampled_abs h hv _

set_option maxHeartbeats 800000 in
/-- the integration, in floats and exactly -/
theorem toXyz_integration (hf : Std f) (hp : PowiAccurate f) {Vs Vi Vc κ : ℝ} {s il cx cy cz : VSPD (FP f)}
    {S IL CX CY CZ : VSPD ℝ} (hs : Spec.Loaded Vs s S) (hil : Spec.Loaded Vi il IL) (hx : Spec.Loaded Vc cx CX)
    (hy : Spec.Loaded Vc cy CY) (hz : Spec.Loaded Vc cz CZ) (m n : ℕ) (hm : 0 < m) (hm5 : m ≤ 5)
    (hmn : 420 = m * (n - 1)) (hn0 : 0 < n) (hκ0 : 0 < κ)
    (hκ : n * (Vi * Vc) ≤ κ * ∑ k ∈ Finset.range n, resampled IL (360 + k * m) * resampled CY (360 + k * m))
    (hκ' : κ ≤ 2 ^ 20) (hκu : κ * 10 ^ 6 * f.u ≤ 1) (q : ℚ) (hq : q = m) :
    ∃ (N : ℕ) (R : XYZ ℝ), ∀ fuel, N ≤ fuel →
      spdToXyzIntegration fuel S (table IL) ⟨table CX, table CY, table CZ⟩ (SpdShape.new 360 780 m) = .ok R ∧
      ∃ il' cx' cy' cz' r,
        il.align fuel (SpdShape.new (Flt.lit 360.0) (Flt.lit 780.0) (Flt.lit 1.0)) = .ok il' ∧
        cx.align fuel (SpdShape.new (Flt.lit 360.0) (Flt.lit 780.0) (Flt.lit 1.0)) = .ok cx' ∧
        cy.align fuel (SpdShape.new (Flt.lit 360.0) (Flt.lit 780.0) (Flt.lit 1.0)) = .ok cy' ∧
        cz.align fuel (SpdShape.new (Flt.lit 360.0) (Flt.lit 780.0) (Flt.lit 1.0)) = .ok cz' ∧
        spdToXyzIntegration fuel s il' ⟨cx', cy', cz'⟩ ⟨Flt.lit 360.0, Flt.lit 780, .uniform (Flt.lit q)⟩ = .ok r ∧
        Spec.XyzNear Vs κ r R := by
  have m0 : (0:ℝ) < m := by exact_mod_cast hm
  have m1 : (1:ℝ) ≤ m := by exact_mod_cast hm
  have hmn' : (420:ℝ) = m * (n - 1 : ℕ) := by exact_mod_cast hmn
  have hdiv : ((780:ℝ) - 360) / m = (n - 1 : ℕ) := by
    rw [div_eq_iff m0.ne']; linarith [mul_comm (m : ℝ) ((n - 1 : ℕ) : ℝ)]
  have hfl : ⌊((780:ℝ) - 360) / m⌋₊ + 1 = n := by rw [hdiv, Nat.floor_natCast]; omega
  have hn4 : n ≤ 421 := by
    have : 1 * (n - 1) ≤ m * (n - 1) := Nat.mul_le_mul_right _ hm
    omega
  have hfit : ((780:ℝ) - 360) / m < 2 ^ 64 := by
    rw [div_lt_iff₀ m0]; nlinarith
  have hg : ∀ k : ℕ, k < n → ∃ j : ℕ, j < 421 ∧ (360:ℝ) + k * m = 360 + j := by
    intro k hk
    refine ⟨k * m, ?_, by push_cast; ring⟩
    have : k * m ≤ (n - 1) * m := Nat.mul_le_mul_right _ (by omega)
    rw [Nat.mul_comm (n - 1)] at this
    omega
  obtain ⟨A1, a1⟩ := (WholeGrid.spans hil.grid hil.overlap).align one_pos 421 floor_420 (by norm_num)
  obtain ⟨A2, a2⟩ := (WholeGrid.spans hx.grid hx.overlap).align one_pos 421 floor_420 (by norm_num)
  obtain ⟨A3, a3⟩ := (WholeGrid.spans hy.grid hy.overlap).align one_pos 421 floor_420 (by norm_num)
  obtain ⟨A4, a4⟩ := (WholeGrid.spans hz.grid hz.overlap).align one_pos 421 floor_420 (by norm_num)
  have hmeet : Meets S 360 780 := (WholeGrid.spans hs.grid hs.overlap).meets
  obtain ⟨B0, SP, b0, -, hSP⟩ := align_values S 360 780 m hmeet m0 hfit
  obtain ⟨B1, b1⟩ := table_align IL 360 780 m n m0 le_rfl le_rfl (by norm_num) hfl hfit hg
  obtain ⟨B2, b2⟩ := table_align CX 360 780 m n m0 le_rfl le_rfl (by norm_num) hfl hfit hg
  obtain ⟨B3, b3⟩ := table_align CY 360 780 m n m0 le_rfl le_rfl (by norm_num) hfl hfit hg
  obtain ⟨B4, b4⟩ := table_align CZ 360 780 m n m0 le_rfl le_rfl (by norm_num) hfl hfit hg
  have hSPb : ∀ p ∈ SP.samples, |p.v| ≤ 89 / 64 * Vs := by
    intro p hp
    have hmem : p.v ∈ SP.values := List.mem_map.2 ⟨p, hp, rfl⟩
    rw [hSP] at hmem
    obtain ⟨k, -, hk⟩ := List.mem_map.1 hmem
    rw [← hk]
    unfold alignedAt
    dsimp only
    split
    · rw [abs_zero]
      have : 0 < Vs := lt_of_lt_of_le (by positivity) hs.lo
      positivity
    · exact resampled_abs hs.grid hs.bound _
  let G (T : VSPD ℝ) := onGrid 360 780 m n (resampled T)
  let ch (C : VSPD ℝ) : ℝ :=
    100 / fsum (((G IL).values.zip (G CY).values).map fun p => p.1 * p.2 * (m : ℝ)) *
      fsum ((SP.values.zip ((G IL).values.zip (G C).values)).map fun p => p.1 * p.2.1 * p.2.2 * (m : ℝ))
  refine ⟨max (max (max A1 A2) (max A3 A4)) (max B0 (max (max B1 B2) (max B3 B4))),
    ⟨ch CX, ch CY, ch CZ⟩, fun fuel hfuel => ?_⟩
  replace a1 := a1 fuel (by omega)
  replace a2 := a2 fuel (by omega)
  replace a3 := a3 fuel (by omega)
  replace a4 := a4 fuel (by omega)
  replace b0 := b0 fuel (by omega)
  replace b1 := b1 fuel (by omega)
  replace b2 := b2 fuel (by omega)
  replace b3 := b3 fuel (by omega)
  replace b4 := b4 fuel (by omega)
  have h100 : (Flt.lit 100.0 : ℝ) = 100 := by norm_num
  refine ⟨?_, ?_⟩
  · unfold spdToXyzIntegration
    dsimp only
    rw [b0, b1, b2, b3, b4]
    simp only [bind, Except.bind]
    rw [h100]
    rfl
  · have sh1 : Spec.SameShape (SpdShape.new (Flt.lit 360.0) (Flt.lit 780.0) (Flt.lit 1.0) : SpdShape (FP f))
        (SpdShape.new ((360 : ℕ) : ℝ) ((780 : ℕ) : ℝ) (1 : ℕ)) :=
      shape_same hf 1 one_pos (by norm_num) _ (by norm_num) _ (by norm_num)
    have shm := shape_same hf m hm (by omega) q hq 780 (by norm_num)
    have c360 : ((360 : ℕ) : ℝ) = 360 := by norm_num
    have c780 : ((780 : ℕ) : ℝ) = 780 := by norm_num
    have c1 : ((1 : ℕ) : ℝ) = 1 := by norm_num
    obtain ⟨il', i1, i2⟩ := align_first hf hp hil 1 one_pos (by norm_num) sh1
      (by rw [c360, c780, c1]; exact a1)
    obtain ⟨cx', x1, x2⟩ := align_first hf hp hx 1 one_pos (by norm_num) sh1
      (by rw [c360, c780, c1]; exact a2)
    obtain ⟨cy', y1, y2⟩ := align_first hf hp hy 1 one_pos (by norm_num) sh1
      (by rw [c360, c780, c1]; exact a3)
    obtain ⟨cz', z1, z2⟩ := align_first hf hp hz 1 one_pos (by norm_num) sh1
      (by rw [c360, c780, c1]; exact a4)
    obtain ⟨sp, s1, s2⟩ := align_first hf hp hs m hm (by omega) shm (by rw [c360, c780]; exact b0)
    obtain ⟨il2, i3, i4⟩ := align_second hf hp hil.grid hil.bound hil.lo hil.hi i2 m hm (by omega) shm
      (by rw [c360, c780]; exact b1)
    obtain ⟨cx2, x3, x4⟩ := align_second hf hp hx.grid hx.bound hx.lo hx.hi x2 m hm (by omega) shm
      (by rw [c360, c780]; exact b2)
    obtain ⟨cy2, y3, y4⟩ := align_second hf hp hy.grid hy.bound hy.lo hy.hi y2 m hm (by omega) shm
      (by rw [c360, c780]; exact b3)
    obtain ⟨cz2, z3, z4⟩ := align_second hf hp hz.grid hz.bound hz.lo hz.hi z2 m hm (by omega) shm
      (by rw [c360, c780]; exact b4)
    have hdw : Whole (Flt.lit q : FP f) m := Whole.lit hf m hm (by omega) q hq
    have vs := s2.values hSPb
    have vi := i4.values (onGrid_bound hil.grid hil.bound 360 780 m n)
    have vx := x4.values (onGrid_bound hx.grid hx.bound 360 780 m n)
    have vy := y4.values (onGrid_bound hy.grid hy.bound 360 780 m n)
    have vz := z4.values (onGrid_bound hz.grid hz.bound 360 780 m n)
    have hκs : n * (Vi * Vc) ≤ κ * (((G IL).values.zip (G CY).values).map fun p => p.1 * p.2).sum := by
      refine hκ.trans (le_of_eq ?_)
      congr 1
      show _ = ((((onGrid 360 780 m n (resampled IL)).values.zip (onGrid 360 780 m n (resampled CY)).values)).map
        fun p => p.1 * p.2).sum
      rw [onGrid_values, onGrid_values, List.zip_map', List.map_map]
      rfl
    have hlen : (G IL).values.length ≤ n := by
      show (onGrid 360 780 m n (resampled IL)).values.length ≤ n
      rw [onGrid_values]; simp
    let chF (c : VSPD (FP f)) : FP f :=
      Flt.lit 100.0 / fsum ((il2.values.zip cy2.values).map fun p => p.1 * p.2 * Flt.lit q) *
        fsum ((sp.values.zip (il2.values.zip c.values)).map fun p => p.1 * p.2.1 * p.2.2 * Flt.lit q)
    refine ⟨il', cx', cy', cz', ⟨chF cx2, chF cy2, chF cz2⟩, i1, x1, y1, z1, ?_, ?_⟩
    rotate_left
    · exact ⟨integration_sim hf hs.lo hs.hi hil.lo hil.hi hy.lo hy.hi hm hm5 hn0 hn4 hdw vs vi vy vx hlen
          hκ0 hκs hκ' hκu _ rfl,
        integration_sim hf hs.lo hs.hi hil.lo hil.hi hy.lo hy.hi hm hm5 hn0 hn4 hdw vs vi vy vy hlen
          hκ0 hκs hκ' hκu _ rfl,
        integration_sim hf hs.lo hs.hi hil.lo hil.hi hy.lo hy.hi hm hm5 hn0 hn4 hdw vs vi vy vz hlen
          hκ0 hκs hκ' hκu _ rfl⟩
    · unfold spdToXyzIntegration
      dsimp only
      rw [s1, i3, x3, y3, z3]
      rfl

/-- C91 [F]: `to_xyz` in f32 and f64, for spectra at whole wavelengths and a reflectance with a whole interval
other than 10 nm. It does not panic, every channel is finite, and it differs from the exact result by at most
`(1.4e7 V + 8e4 |exact|) κ u`, where `V` bounds the reflectance and `κ` says how far the mean of
illuminant times y-bar is below the product of the bounds `Vi` and `Vc` of illuminant and observer. The sums run over every nanometre of 360..780, or every fifth for a
5 nm reflectance. -/
theorem C91_to_xyz (hf : Std f) (hp : PowiAccurate f) {Vs Vi Vc κ : ℝ} (s il : VSPD (FP f)) (cmf : CMF (FP f))
    (S IL : VSPD ℝ) (CM : CMF ℝ) (hs : Spec.Loaded Vs s S) (hil : Spec.Loaded Vi il IL)
    (hx : Spec.Loaded Vc cmf.xBar CM.xBar) (hy : Spec.Loaded Vc cmf.yBar CM.yBar)
    (hz : Spec.Loaded Vc cmf.zBar CM.zBar) (i m n : ℕ) (hi : S.shape.interval = .uniform (i : ℝ))
    (hi' : i ≤ 2 ^ 20) (h10 : i ≠ 10) (hmn : (m, n) = if i = 5 then (5, 85) else (1, 421)) (hκ0 : 0 < κ)
    (hκ : n * (Vi * Vc) ≤
      κ * ∑ k ∈ Finset.range n, resampled IL (360 + k * m) * resampled CM.yBar (360 + k * m))
    (hκ' : κ ≤ 2 ^ 20) (hκu : κ * 10 ^ 6 * f.u ≤ 1) :
    ∃ (N : ℕ) (R : XYZ ℝ), ∀ fuel, N ≤ fuel → S.toXyz fuel IL CM = .ok R ∧
      ∃ r, s.toXyz fuel il cmf = .ok r ∧ Spec.XyzNear Vs κ r R := by
  have ht : Tables IL CM := ⟨WholeGrid.spans hil.grid hil.overlap, WholeGrid.spans hx.grid hx.overlap,
    WholeGrid.spans hy.grid hy.overlap, WholeGrid.spans hz.grid hz.overlap⟩
  obtain ⟨N0, h0⟩ := toXyz_prefix IL CM ht
  have hsi := hs.tracks.shape.interval
  rw [hi] at hsi
  obtain ⟨v, hv, hvi⟩ := hsi.inv
  have huF : (Flt.toUsize v : Option ℕ) = some i := hvi.whole.usize (hi'.trans (by norm_num))
  have huR : Flt.toUsize (i : ℝ) = some i := by
    have h64 : (i : ℝ) < 2 ^ 64 :=
      lt_of_le_of_lt (b := ((2 ^ 20 : ℕ) : ℝ)) (by exact_mod_cast hi') (by norm_num)
    rw [flt_toUsize, if_pos ⟨by linarith [(Nat.cast_nonneg i : (0:ℝ) ≤ i)], h64⟩, Nat.floor_natCast]
  by_cases h5 : i = 5
  · rw [if_pos h5] at hmn
    obtain ⟨rfl, rfl⟩ := Prod.mk.inj hmn
    obtain ⟨N, R, h⟩ := toXyz_integration hf hp hs hil hx hy hz 5 85 (by norm_num) le_rfl (by norm_num)
      (by norm_num) hκ0 hκ hκ' hκu 5.0 (by norm_num)
    refine ⟨max N0 N, R, fun fuel hfuel => ?_⟩
    obtain ⟨r1, il', cx', cy', cz', r, e1, e2, e3, e4, e5, e6⟩ := h fuel (by omega)
    subst h5
    refine ⟨?_, r, ?_, e6⟩
    · rw [h0 fuel (by omega) S]
      unfold toXyzTail
      rw [hi]
      dsimp only
      rw [huR]
      exact r1
    · unfold VSPD.toXyz CMF.align VSPD.interval
      dsimp only
      rw [e1, e2, e3, e4, hv]
      simp only [bind, Except.bind]
      rw [huF]
      exact e5
  · rw [if_neg h5] at hmn
    obtain ⟨rfl, rfl⟩ := Prod.mk.inj hmn
    obtain ⟨N, R, h⟩ := toXyz_integration hf hp hs hil hx hy hz 1 421 (by norm_num) (by norm_num) (by norm_num)
      (by norm_num) hκ0 hκ hκ' hκu 1.0 (by norm_num)
    refine ⟨max N0 N, R, fun fuel hfuel => ?_⟩
    obtain ⟨r1, il', cx', cy', cz', r, e1, e2, e3, e4, e5, e6⟩ := h fuel (by omega)
    rw [Nat.cast_one] at r1
    refine ⟨?_, r, ?_, e6⟩
    · rw [h0 fuel (by omega) S]
      unfold toXyzTail
      rw [hi]
      dsimp only
      rw [huR]
      simp only [unwrap, bind, Except.bind]
      split
      · exact r1
      · exact absurd rfl h5
      · exact absurd rfl h10
      · exact r1
    · unfold VSPD.toXyz CMF.align VSPD.interval
      dsimp only
      rw [e1, e2, e3, e4, hv]
      simp only [bind, Except.bind]
      rw [huF]
      simp only [unwrap]
      split
      · exact e5
      · exact absurd rfl h5
      · exact absurd rfl h10
      · exact e5

end
end CS

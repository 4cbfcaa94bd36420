import Verif.Props.ToXyz

/-!
# Spectrum to XYZ is linear (C55)
-/

namespace CS

/-- componentwise `r = a*p + b*q` -/
def LinXYZ (a b : ℝ) (p q r : XYZ ℝ) : Prop :=
  r.x = a * p.x + b * q.x ∧ r.y = a * p.y + b * q.y ∧ r.z = a * p.z + b * q.z

theorem LinV.zipSum {a b : ℝ} {u v w : List ℝ} (h : LinV a b u v w) (L : List (ℝ × ℝ)) (dw : ℝ) :
    ((w.zip L).map fun p => p.1 * p.2.1 * p.2.2 * dw).sum =
      a * ((u.zip L).map fun p => p.1 * p.2.1 * p.2.2 * dw).sum +
      b * ((v.zip L).map fun p => p.1 * p.2.1 * p.2.2 * dw).sum := by
  induction h generalizing L with
  | nil => simp
  | cons x y _ ih =>
    cases L with
    | nil => simp
    | cons c L =>
      simp only [List.zip_cons_cons, List.map_cons, List.sum_cons]
      rw [ih L]; ring

theorem LinRes.ok {α : Type} {R : α → α → α → Prop} {p q r : α} (h : R p q r) :
    LinRes R (.ok p) (.ok q) (.ok r) := h

theorem integration_linear (a b : ℝ) (u v w il : VSPD ℝ) (cmf : CMF ℝ) (shape : SpdShape ℝ) (fuel : ℕ)
    (h : IsLin a b u v w) : LinRes (LinXYZ a b) (spdToXyzIntegration fuel u il cmf shape)
      (spdToXyzIntegration fuel v il cmf shape) (spdToXyzIntegration fuel w il cmf shape) := by
  unfold spdToXyzIntegration
  refine (LinRes.refl _).bind ?_
  rintro _ _ cx ⟨rfl, rfl⟩
  refine (LinRes.refl _).bind ?_
  rintro _ _ cy ⟨rfl, rfl⟩
  refine (LinRes.refl _).bind ?_
  rintro _ _ cz ⟨rfl, rfl⟩
  refine (LinRes.refl _).bind ?_
  rintro _ _ il' ⟨rfl, rfl⟩
  refine (C43_align a b u v w shape fuel h).bind ?_
  intro su sv sw hs
  have hv := hs.samples.values
  dsimp only
  cases shape.interval with
  | varying => exact ⟨rfl, rfl⟩
  | uniform dw =>
    refine ⟨?_, ?_, ?_⟩ <;>
    · simp only [fsum_eq]
      unfold VSPD.values at *
      rw [hv.zipSum]; ring

theorem weights_linear (a b : ℝ) (u v w il : VSPD ℝ) (cmf : CMF ℝ) (fuel : ℕ) (h : IsLin a b u v w) :
    LinRes (LinXYZ a b) (spdToXyzWeights fuel u il cmf) (spdToXyzWeights fuel v il cmf)
      (spdToXyzWeights fuel w il cmf) := by
  unfold spdToXyzWeights
  rw [h.shape₁, h.shape₂]
  cases u.shape.interval with
  | varying => exact ⟨rfl, rfl⟩
  | uniform i =>
    have tail : ∀ il' : VSPD ℝ, LinRes (LinXYZ a b)
        (do
          let sp ← u.trim cmf.shape
          let w ← weightsE2022 cmf il' (SpdShape.new cmf.shape.start cmf.shape.end i)
          let n1 ← usub w.1.length 1
          let w ← adjustWeights w (SpdShape.new cmf.shape.start
            (cmf.shape.start + i * Flt.ofNat n1) i) sp.shape
          Except.ok (⟨dotSum w.1 sp.values, dotSum w.2.1 sp.values, dotSum w.2.2 sp.values⟩ : XYZ ℝ))
        (do
          let sp ← v.trim cmf.shape
          let w ← weightsE2022 cmf il' (SpdShape.new cmf.shape.start cmf.shape.end i)
          let n1 ← usub w.1.length 1
          let w ← adjustWeights w (SpdShape.new cmf.shape.start
            (cmf.shape.start + i * Flt.ofNat n1) i) sp.shape
          Except.ok (⟨dotSum w.1 sp.values, dotSum w.2.1 sp.values, dotSum w.2.2 sp.values⟩ : XYZ ℝ))
        (do
          let sp ← w.trim cmf.shape
          let w ← weightsE2022 cmf il' (SpdShape.new cmf.shape.start cmf.shape.end i)
          let n1 ← usub w.1.length 1
          let w ← adjustWeights w (SpdShape.new cmf.shape.start
            (cmf.shape.start + i * Flt.ofNat n1) i) sp.shape
          Except.ok (⟨dotSum w.1 sp.values, dotSum w.2.1 sp.values, dotSum w.2.2 sp.values⟩ : XYZ ℝ)) := by
      intro il'
      refine (C43_trim a b u v w _ h).bind ?_
      intro su sv sw hs
      refine (LinRes.refl _).bind ?_
      rintro _ _ wt ⟨rfl, rfl⟩
      refine (LinRes.refl _).bind ?_
      rintro _ _ n1 ⟨rfl, rfl⟩
      rw [hs.shape₁, hs.shape₂]
      refine (LinRes.refl _).bind ?_
      rintro _ _ wt ⟨rfl, rfl⟩
      have hv := hs.samples.values
      refine ⟨?_, ?_, ?_⟩ <;> exact hv.dotSum _
    dsimp only
    split
    · refine (LinRes.refl _).bind ?_
      rintro _ _ il' ⟨rfl, rfl⟩
      exact tail _
    · exact tail _

/-- C55 [R]: `to_xyz` is linear in the spectrum, on every path and whatever the grids: if `w` is
`a*u + b*v` on the same wavelengths, then the three calls either all return, with results related the
same way, or all panic (or run out of fuel) alike. -/
theorem C55_linear (a b : ℝ) (u v w il : VSPD ℝ) (cmf : CMF ℝ) (fuel : ℕ) (h : IsLin a b u v w) :
    LinRes (LinXYZ a b) (u.toXyz fuel il cmf) (v.toXyz fuel il cmf) (w.toXyz fuel il cmf) := by
  unfold VSPD.toXyz
  refine (LinRes.refl _).bind ?_
  rintro _ _ il' ⟨rfl, rfl⟩
  refine (LinRes.refl _).bind ?_
  rintro _ _ cm ⟨rfl, rfl⟩
  unfold VSPD.interval
  rw [h.shape₁, h.shape₂]
  cases u.shape.interval with
  | varying =>
    dsimp only
    refine (C43_align a b u v w _ fuel h).bind ?_
    intro su sv sw hs
    rw [hs.shape₁, hs.shape₂]
    exact integration_linear a b su sv sw _ _ _ fuel hs
  | uniform i =>
    dsimp only
    refine (LinRes.refl _).bind ?_
    rintro _ _ n ⟨rfl, rfl⟩
    split
    · exact integration_linear a b u v w _ _ _ fuel h
    · exact integration_linear a b u v w _ _ _ fuel h
    · exact weights_linear a b u v w _ _ fuel h
    · exact integration_linear a b u v w _ _ _ fuel h

/-- Not vacuous: two reflectances on 400, 410, ..., 700 and `2u - 3v`. -/
example (f g : ℝ → ℝ) : IsLin 2 (-3) (onGrid 400 700 10 31 f) (onGrid 400 700 10 31 g)
    (onGrid 400 700 10 31 fun x => 2 * f x + -3 * g x) := by
  refine ⟨rfl, rfl, ?_⟩
  unfold onGrid
  generalize List.range 31 = L
  induction L with
  | nil => exact .nil
  | cons k L ih => exact .cons _ _ _ ih

/-! ## scaling the illuminant -/

namespace LinV
variable {a b : ℝ} {u v w : List ℝ}

theorem getElem? (h : LinV a b u v w) (k : ℕ) : (u[k]? = none ∧ v[k]? = none ∧ w[k]? = none) ∨
    ∃ x y, u[k]? = some x ∧ v[k]? = some y ∧ w[k]? = some (a * x + b * y) := by
  induction h generalizing k with
  | nil => left; simp
  | cons x y _ ih =>
    cases k with
    | zero => right; exact ⟨x, y, rfl, rfl, rfl⟩
    | succ k => simpa using ih k

theorem idx (h : LinV a b u v w) (k : ℕ) :
    LinRes (fun p q r => r = a * p + b * q) (idx u k) (CS.idx v k) (CS.idx w k) := by
  unfold CS.idx
  rcases h.getElem? k with ⟨e1, e2, e3⟩ | ⟨x, y, e1, e2, e3⟩
  · rw [e1, e2, e3]; exact ⟨rfl, rfl⟩
  · rw [e1, e2, e3]; exact rfl

theorem set (h : LinV a b u v w) (k : ℕ) (x y : ℝ) :
    LinV a b (u.set k x) (v.set k y) (w.set k (a * x + b * y)) := by
  induction h generalizing k with
  | nil => exact .nil
  | cons x' y' h ih =>
    cases k with
    | zero => exact .cons _ _ h
    | succ k => exact .cons _ _ (ih k)

theorem addAt (h : LinV a b u v w) (k : ℕ) (x y z : ℝ) (hz : z = a * x + b * y) :
    LinRes (LinV a b) (addAt u k x) (CS.addAt v k y) (CS.addAt w k z) := by
  unfold CS.addAt
  refine (h.idx k).bind ?_
  rintro p q r rfl
  have := h.set k (p + x) (q + y)
  rw [show a * (p + x) + b * (q + y) = a * p + b * q + z by rw [hz]; ring] at this
  exact this

theorem foldlM {ι : Type} (f g k : List ℝ → ι → Res (List ℝ)) (L : List ι)
    (hf : ∀ u v w i, LinV a b u v w → LinRes (LinV a b) (f u i) (g v i) (k w i))
    (h : LinV a b u v w) : LinRes (LinV a b) (L.foldlM f u) (L.foldlM g v) (L.foldlM k w) := by
  induction L generalizing u v w with
  | nil => exact h
  | cons i L ih =>
    rw [List.foldlM_cons, List.foldlM_cons, List.foldlM_cons]
    exact (hf u v w i h).bind fun p q r hl => ih hl

theorem stepBy (h : LinV a b u v w) (n : ℕ) :
    LinV a b (stepBy n u) (CS.stepBy n v) (CS.stepBy n w) := by
  unfold CS.stepBy
  rw [h.length.1, h.length.2]
  generalize List.range u.length = L
  induction L with
  | nil => exact .nil
  | cons i L ih =>
    simp only [List.filterMap_cons]
    by_cases hi : i % n = 0
    · simp only [if_pos hi]
      rcases h.getElem? i with ⟨e1, e2, e3⟩ | ⟨x, y, e1, e2, e3⟩
      · simp only [e1, e2, e3]; exact ih
      · simp only [e1, e2, e3]; exact .cons x y ih
    · simp only [if_neg hi]; exact ih

theorem zipMulRight (h : LinV a b u v w) (c : List ℝ) :
    LinV a b (List.zipWith (· * ·) u c) (List.zipWith (· * ·) v c) (List.zipWith (· * ·) w c) := by
  induction h generalizing c with
  | nil => exact .nil
  | cons x y _ ih =>
    cases c with
    | nil => exact .nil
    | cons z c =>
      simp only [List.zipWith_cons_cons]
      rw [show (a * x + b * y) * z = a * (x * z) + b * (y * z) by ring]
      exact .cons _ _ (ih c)

theorem weightsChannel {s t r : List ℝ} (h : LinV a b s t r) (y : List ℝ) (cc cb : List (List ℝ))
    (ii wc ic : ℕ) : LinRes (LinV a b) (weightsChannel s y cc cb ii wc ic)
      (CS.weightsChannel t y cc cb ii wc ic) (CS.weightsChannel r y cc cb ii wc ic) := by
  unfold CS.weightsChannel
  dsimp only
  refine (LinRes.refl _).bind ?_
  rintro _ _ wc1 ⟨rfl, rfl⟩
  refine (LinRes.refl _).bind ?_
  rintro _ _ a' ⟨rfl, rfl⟩
  refine (LinRes.refl _).bind ?_
  rintro _ _ b' ⟨rfl, rfl⟩
  refine (LinRes.refl _).bind ?_
  rintro _ _ wlif ⟨rfl, rfl⟩
  refine (LinRes.refl _).bind ?_
  rintro _ _ icm ⟨rfl, rfl⟩
  refine (LinV.foldlM _ _ _ _ (fun u v w j h1 => LinV.foldlM _ _ _ _ (fun u v w k h2 => ?_) h1)
    ((h.stepBy ii).zipMulRight _)).bind ?_
  · refine (LinRes.refl _).bind ?_
    rintro _ _ c1 ⟨rfl, rfl⟩
    refine (LinRes.refl _).bind ?_
    rintro _ _ c2 ⟨rfl, rfl⟩
    refine (h.idx _).bind ?_
    rintro p q r rfl
    refine (LinRes.refl _).bind ?_
    rintro _ _ yv ⟨rfl, rfl⟩
    exact h2.addAt _ _ _ _ (by ring)
  intro w1 w2 w3 hw
  refine (LinRes.refl _).bind ?_
  rintro _ _ icm2 ⟨rfl, rfl⟩
  refine (LinV.foldlM _ _ _ _ (fun u v w j h1 => LinV.foldlM _ _ _ _ (fun u v w k h2 => ?_) h1)
    hw).bind ?_
  · refine (LinRes.refl _).bind ?_
    rintro _ _ c1 ⟨rfl, rfl⟩
    refine (LinRes.refl _).bind ?_
    rintro _ _ c2 ⟨rfl, rfl⟩
    refine (h.idx _).bind ?_
    rintro p q r rfl
    refine (LinRes.refl _).bind ?_
    rintro _ _ yv ⟨rfl, rfl⟩
    exact h2.addAt _ _ _ _ (by ring)
  intro w1 w2 w3 hw
  refine (LinRes.refl _).bind ?_
  rintro _ _ ic3 ⟨rfl, rfl⟩
  refine (LinV.foldlM _ _ _ _ (fun u v w j h1 => LinV.foldlM _ _ _ _ (fun u v w k h2 => ?_) h1)
    hw).bind ?_
  · refine (LinRes.refl _).bind ?_
    rintro _ _ c1 ⟨rfl, rfl⟩
    refine (h.idx _).bind ?_
    rintro p q r rfl
    refine (LinRes.refl _).bind ?_
    rintro _ _ yv ⟨rfl, rfl⟩
    refine LinV.foldlM _ _ _ _ (fun u v w l h3 => ?_) h2
    refine (LinRes.refl _).bind ?_
    rintro _ _ c2 ⟨rfl, rfl⟩
    exact h3.addAt _ _ _ _ (by ring)
  intro w1 w2 w3 hw
  refine LinV.foldlM _ _ _ _ (fun u v w j h1 => ?_) hw
  refine (h.idx _).bind ?_
  rintro p q r rfl
  refine (LinRes.refl _).bind ?_
  rintro _ _ yv ⟨rfl, rfl⟩
  exact h1.addAt _ _ _ _ (by ring)

end LinV

theorem LinRes.diag {α : Type} {R : α → α → α → Prop} {x z : Res α} (h : LinRes R x x z) :
    (∃ p r, x = .ok p ∧ z = .ok r ∧ R p p r) ∨ ∃ e, x = .error e ∧ z = .error e := by
  cases x with
  | ok p =>
    cases z with
    | ok r => exact Or.inl ⟨p, r, rfl, rfl, h⟩
    | error e => exact h.elim
  | error e =>
    cases z with
    | ok r => exact h.elim
    | error e' => exact Or.inr ⟨e, rfl, by rw [h.2]⟩

/-- to show that two computations agree, when the first steps are related -/
theorem LinRes.bind_eq {α β : Type} {R : α → α → α → Prop} {x z : Res α} (h : LinRes R x x z)
    {f g : α → Res β} (hfg : ∀ p r, R p p r → g r = f p) : z >>= g = x >>= f := by
  rcases h.diag with ⟨p, r, rfl, rfl, hr⟩ | ⟨e, rfl, rfl⟩
  · exact hfg p r hr
  · rfl

theorem LinV.scale {c : ℝ} {u v w : List ℝ} (h : LinV c 0 u v w) : w = u.map (c * ·) := by
  induction h with
  | nil => rfl
  | cons x y _ ih => rw [ih]; simp

theorem LinV.scaled_sum {c : ℝ} {u v w : List ℝ} (h : LinV c 0 u v w) : w.sum = c * u.sum := by
  rw [h.scale, List.sum_map_mul_left]; simp

theorem LinV.normalise {c : ℝ} (hc : c ≠ 0) {u v w y y' y'' : List ℝ} (h : LinV c 0 u v w)
    (hy : LinV c 0 y y' y'') : w.map (· * (100 / y''.sum)) = u.map (· * (100 / y.sum)) := by
  rw [h.scale, hy.scaled_sum, List.map_map]
  apply List.map_congr_left
  intro x _
  simp only [Function.comp]
  by_cases hs : y.sum = 0
  · rw [hs]; simp
  · field_simp

theorem weightsE2022_scale (c : ℝ) (hc : c ≠ 0) (cmf : CMF ℝ) (il il' : VSPD ℝ) (shape : SpdShape ℝ)
    (h : IsLin c 0 il il il') : weightsE2022 cmf il' shape = weightsE2022 cmf il shape := by
  have hv := h.samples.values
  change LinV c 0 il.values il.values il'.values at hv
  unfold weightsE2022
  rw [h.shape₂]
  cases cmf.shape.interval with
  | varying => rfl
  | uniform i =>
    dsimp only
    split
    · rfl
    · split
      · rfl
      · cases shape.interval with
        | varying => rfl
        | uniform interval =>
          dsimp only
          cases lagrangeCoefficientsE2022 interval 3 with
          | error e => rfl
          | ok cc =>
            cases lagrangeCoefficientsE2022 interval 4 with
            | error e => rfl
            | ok cb =>
              simp only [bind, Except.bind]
              rw [((hv.stepBy (Flt.asUInt (2 ^ 64 - 1) interval)).zipMulRight
                (stepBy (Flt.asUInt (2 ^ 64 - 1) interval) cmf.xBar.values)).length.2]
              generalize (List.zipWith _ _ _).length = ic
              refine (hv.weightsChannel cmf.xBar.values cc cb _ _ ic).bind_eq ?_
              intro x1 x3 hx
              refine (hv.weightsChannel cmf.yBar.values cc cb _ _ ic).bind_eq ?_
              intro y1 y3 hy
              refine (hv.weightsChannel cmf.zBar.values cc cb _ _ ic).bind_eq ?_
              intro z1 z3 hz
              have e : (Flt.lit 100.0 : ℝ) = 100 := by norm_num
              rw [fsum_eq, fsum_eq, e, hx.normalise hc hy, hy.normalise hc hy, hz.normalise hc hy]

theorem weights_scale (c : ℝ) (hc : c ≠ 0) (s il il' : VSPD ℝ) (cmf : CMF ℝ) (fuel : ℕ)
    (h : IsLin c 0 il il il') : spdToXyzWeights fuel s il' cmf = spdToXyzWeights fuel s il cmf := by
  unfold spdToXyzWeights
  cases s.shape.interval with
  | varying => rfl
  | uniform i =>
    dsimp only
    rw [h.shape₂]
    split
    · refine (C43_align c 0 il il il' cmf.shape fuel h).bind_eq ?_
      intro u w hu
      rw [weightsE2022_scale c hc cmf u w _ hu]
    · refine LinRes.bind_eq (R := IsLin c 0) (x := .ok il) (z := .ok il') h ?_
      intro u w hu
      rw [weightsE2022_scale c hc cmf u w _ hu]

theorem LinV.zip_scale {c : ℝ} {u v w : List ℝ} (h : LinV c 0 u v w) (s y : List ℝ) (dw : ℝ) :
    ((s.zip (w.zip y)).map fun p => p.1 * p.2.1 * p.2.2 * dw).sum =
      c * ((s.zip (u.zip y)).map fun p => p.1 * p.2.1 * p.2.2 * dw).sum := by
  induction h generalizing s y with
  | nil => simp
  | cons x _ _ ih =>
    cases y with
    | nil => simp
    | cons y0 y =>
      cases s with
      | nil => simp
      | cons s0 s =>
        simp only [List.zip_cons_cons, List.map_cons, List.sum_cons]
        rw [ih s y]; ring

theorem LinV.zip2_scale {c : ℝ} {u v w : List ℝ} (h : LinV c 0 u v w) (y : List ℝ) (dw : ℝ) :
    ((w.zip y).map fun p => p.1 * p.2 * dw).sum =
      c * ((u.zip y).map fun p => p.1 * p.2 * dw).sum := by
  induction h generalizing y with
  | nil => simp
  | cons x _ _ ih =>
    cases y with
    | nil => simp
    | cons y0 y =>
      simp only [List.zip_cons_cons, List.map_cons, List.sum_cons]
      rw [ih y]; ring

theorem integration_scale (c : ℝ) (hc : c ≠ 0) (s il il' : VSPD ℝ) (cmf : CMF ℝ) (shape : SpdShape ℝ)
    (fuel : ℕ) (h : IsLin c 0 il il il') :
    spdToXyzIntegration fuel s il' cmf shape = spdToXyzIntegration fuel s il cmf shape := by
  unfold spdToXyzIntegration
  congr 1; funext cx
  congr 1; funext cy
  congr 1; funext cz
  refine (C43_align c 0 il il il' shape fuel h).bind_eq ?_
  intro u w hu
  congr 1; funext sp
  have hv := hu.samples.values
  change LinV c 0 u.values u.values w.values at hv
  dsimp only
  cases shape.interval with
  | varying => rfl
  | uniform dw =>
    simp only [bind, Except.bind, fsum_eq, hv.zip_scale, hv.zip2_scale]
    have e : ∀ k q A : ℝ, k / (c * q) * (c * A) = k / q * A := by
      intro k q A
      by_cases hq : q = 0
      · rw [hq]; simp
      · field_simp
    simp only [e]

/-- C55 [R]: multiplying the illuminant by a non-zero constant does not change the result of `to_xyz`,
including whether and how it panics. (Over the reals; when the illuminant or its product with y-bar is
zero both sides divide by zero.) -/
theorem C55_illuminant_scale (c : ℝ) (hc : c ≠ 0) (s il il' : VSPD ℝ) (cmf : CMF ℝ) (fuel : ℕ)
    (h : IsLin c 0 il il il') : s.toXyz fuel il' cmf = s.toXyz fuel il cmf := by
  unfold VSPD.toXyz
  dsimp only
  refine (C43_align c 0 il il il' _ fuel h).bind_eq ?_
  intro u w hu
  congr 1; funext cm
  simp only [integration_scale c hc _ u w _ _ _ hu, weights_scale c hc _ u w _ _ hu]

/-- Not vacuous: an illuminant and its triple. -/
example : IsLin 3 0 (onGrid 360 780 1 421 fun x => x) (onGrid 360 780 1 421 fun x => x)
    (onGrid 360 780 1 421 fun x => 3 * x) := by
  refine ⟨rfl, rfl, ?_⟩
  unfold onGrid
  generalize List.range 421 = L
  induction L with
  | nil => exact .nil
  | cons k L ih =>
    have := LinS.cons (a := 3) (b := 0) (360 + (k : ℝ) * 1) (360 + (k : ℝ) * 1) (360 + (k : ℝ) * 1) ih
    simpa using this

end CS

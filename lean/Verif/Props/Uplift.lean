import Verif.Model.Uplift
import Verif.Lemmas.Grid
import Verif.Lemmas.Linear

/-!
# RGB uplifting (C59)
-/

namespace CS

/-- the three basis spectra at sample `k` -/
noncomputable def Spec.my (k : ℕ) : ℝ × ℝ × ℝ :=
  ((Tables.myR.getD k 0 : ℚ), (Tables.myG.getD k 0 : ℚ), (Tables.myB.getD k 0 : ℚ))

theorem getD_map_lit (t : List ℚ) (k : ℕ) : (t.map (Flt.lit : ℚ → ℝ)).getD k 0 = ((t.getD k 0 : ℚ) : ℝ) := by
  induction t generalizing k with
  | nil => simp
  | cons x t ih =>
    cases k with
    | zero => simp
    | succ k => simpa using ih k

theorem my_grid (t : List ℚ) (h : t.length = 81) :
    VSPD.fromValues (SpdShape.new (Flt.lit 380.0) (Flt.lit 780.0) (Flt.lit 5.0)) (t.map (Flt.lit : ℚ → ℝ)) =
      .ok ⟨gridSamples 380 5 (t.map Flt.lit), SpdShape.new 380 780 5⟩ := by
  have e1 : (Flt.lit 380.0 : ℝ) = 380 := by norm_num
  have e2 : (Flt.lit 780.0 : ℝ) = 780 := by norm_num
  have e3 : (Flt.lit 5.0 : ℝ) = 5 := by norm_num
  rw [e1, e2, e3]
  refine fromValues_grid 380 780 5 _ ?_ ?_ (by norm_num) ?_
  · rw [List.length_map, h]; norm_num
  · rw [List.length_map, h]; norm_num
  · rw [List.length_map, h]
    have : ⌊((780:ℝ) - 380) / 5⌋₊ = 80 := by
      rw [show ((780:ℝ) - 380) / 5 = (80 : ℕ) by norm_num, Nat.floor_natCast]
    rw [this]

theorem grid_wavelengths (lo i : ℝ) (v : List ℝ) (sh : SpdShape ℝ) :
    (⟨gridSamples lo i v, sh⟩ : VSPD ℝ).wavelengths = (List.range v.length).map fun k : ℕ => lo + k * i := by
  simp [VSPD.wavelengths, gridSamples, Function.comp_def]

theorem grid_values (lo i : ℝ) (v : List ℝ) (sh : SpdShape ℝ) :
    (⟨gridSamples lo i v, sh⟩ : VSPD ℝ).values = v := by
  simp only [VSPD.values, gridSamples, List.map_map, Function.comp_def]
  apply List.ext_getElem
  · simp
  · intro k hk hk'
    simp [List.getD_eq_getElem?_getD, hk']

/-- C59 [R]: `uplift_my` always returns 81 samples at 380, 385, ..., 780 nm, labelled as such; sample `k` is
the combination of the three basis values with the red, green and blue components. -/
theorem C59_samples (rgb : RGBf ℝ) : ∃ s, upliftMy rgb = .ok s ∧ s.shape = SpdShape.new 380 780 5 ∧
    s.samples.length = 81 ∧ ∀ k : ℕ, k < 81 → s.samples[k]? = some ⟨380 + k * 5,
      (Spec.my k).1 * rgb.r + (Spec.my k).2.1 * rgb.g + (Spec.my k).2.2 * rgb.b⟩ := by
  have l1 : Tables.myR.length = 81 := by decide +kernel
  have l2 : Tables.myG.length = 81 := by decide +kernel
  have l3 : Tables.myB.length = 81 := by decide +kernel
  set vals : List ℝ := (List.range 81).map fun k =>
    (Spec.my k).1 * rgb.r + (Spec.my k).2.1 * rgb.g + (Spec.my k).2.2 * rgb.b with hvals
  have hvl : vals.length = 81 := by simp [hvals]
  have hnew := new_grid 380 5 vals (by omega) _ rfl
  refine ⟨⟨gridSamples 380 5 vals, SpdShape.new 380 780 5⟩, ?_, rfl, ?_, ?_⟩
  · unfold upliftMy myBasis
    rw [my_grid _ l1, my_grid _ l2, my_grid _ l3]
    simp only [bind, Except.bind, grid_wavelengths, grid_values, List.length_map, l1]
    rw [hvl, show (380:ℝ) + ((81 - 1 : ℕ) : ℝ) * 5 = 780 by norm_num] at hnew
    rw [← hnew]
    refine congrArg VSPD.new ?_
    apply List.ext_getElem
    · simp [gridSamples, hvl, l1, l2, l3]
    · intro k hk hk'
      have hk2 : k < 81 := by simpa [gridSamples, hvl] using hk'
      have key : ∀ t : List ℚ, ∀ h : k < t.length, (Flt.lit t[k] : ℝ) = ((t.getD k 0 : ℚ) : ℝ) := by
        intro t h; rw [List.getD_eq_getElem _ _ h]; simp
      simp only [gridSamples, List.getElem_map, List.getElem_zip, List.getElem_range]
      rw [List.getD_eq_getElem _ _ (by omega), key, key, key]
      simp [hvals, Spec.my]
  · rw [gridSamples_length, hvl]
  · intro k hk
    rw [gridSamples_get _ _ _ _ (by omega), List.getD_eq_getElem _ _ (by omega)]
    simp [hvals]

theorem uplift_unique {rgb : RGBf ℝ} {s : VSPD ℝ} (h : upliftMy rgb = .ok s) :
    s.shape = SpdShape.new 380 780 5 ∧ s.samples.length = 81 ∧ ∀ k : ℕ, k < 81 →
      s.samples[k]? = some ⟨380 + k * 5,
        (Spec.my k).1 * rgb.r + (Spec.my k).2.1 * rgb.g + (Spec.my k).2.2 * rgb.b⟩ := by
  obtain ⟨s', h1, h2, h3, h4⟩ := C59_samples rgb
  rw [h1] at h
  cases h
  exact ⟨h2, h3, h4⟩

/-- C59 [R]: uplifting is linear in the RGB colour. -/
theorem C59_linear (a b : ℝ) (p q : RGBf ℝ) :
    LinRes (IsLin a b) (upliftMy p) (upliftMy q)
      (upliftMy ⟨a * p.r + b * q.r, a * p.g + b * q.g, a * p.b + b * q.b⟩) := by
  obtain ⟨u, hu, su, lu, vu⟩ := C59_samples p
  obtain ⟨v, hv, sv, lv, vv⟩ := C59_samples q
  obtain ⟨w, hw, sw, lw, vw⟩ := C59_samples ⟨a * p.r + b * q.r, a * p.g + b * q.g, a * p.b + b * q.b⟩
  rw [hu, hv, hw]
  refine ⟨by rw [su, sv], by rw [su, sw], ?_⟩
  have key : ∀ (f g : ℕ → ℝ) (L : List ℕ),
      LinS a b (L.map fun k : ℕ => ⟨380 + k * 5, f k⟩) (L.map fun k : ℕ => ⟨380 + k * 5, g k⟩)
        (L.map fun k : ℕ => ⟨380 + k * 5, a * f k + b * g k⟩) := by
    intro f g L
    induction L with
    | nil => exact .nil
    | cons k L ih => exact .cons _ _ _ ih
  have ext : ∀ (s : VSPD ℝ) (f : ℕ → ℝ), s.samples.length = 81 →
      (∀ k : ℕ, k < 81 → s.samples[k]? = some ⟨380 + k * 5, f k⟩) →
      s.samples = (List.range 81).map fun k : ℕ => ⟨380 + k * 5, f k⟩ := by
    intro s f hl hs
    apply List.ext_getElem?
    intro k
    by_cases hk : k < 81
    · rw [hs k hk]; simp [hk]
    · rw [List.getElem?_eq_none (by omega), List.getElem?_eq_none (by simp; omega)]
  rw [ext u _ lu vu, ext v _ lv vv, ext w (fun k => a * ((Spec.my k).1 * p.r + (Spec.my k).2.1 * p.g +
    (Spec.my k).2.2 * p.b) + b * ((Spec.my k).1 * q.r + (Spec.my k).2.1 * q.g + (Spec.my k).2.2 * q.b)) lw ?_]
  · exact key _ _ _
  · intro k hk
    rw [vw k hk]
    congr 2
    ring

theorem my_facts : ∀ k < 81, 0 ≤ Tables.myR.getD k 0 ∧ 0 ≤ Tables.myG.getD k 0 ∧ 0 ≤ Tables.myB.getD k 0 ∧
    0.99999 ≤ Tables.myR.getD k 0 + Tables.myG.getD k 0 + Tables.myB.getD k 0 ∧
    Tables.myR.getD k 0 + Tables.myG.getD k 0 + Tables.myB.getD k 0 ≤ 1 + 1e-8 := by decide +kernel

theorem my_real (k : ℕ) (hk : k < 81) : 0 ≤ (Spec.my k).1 ∧ 0 ≤ (Spec.my k).2.1 ∧ 0 ≤ (Spec.my k).2.2 ∧
    0.99999 ≤ (Spec.my k).1 + (Spec.my k).2.1 + (Spec.my k).2.2 ∧
    (Spec.my k).1 + (Spec.my k).2.1 + (Spec.my k).2.2 ≤ 1 + 1e-8 := by
  obtain ⟨h1, h2, h3, h4, h5⟩ := my_facts k hk
  unfold Spec.my
  generalize Tables.myR.getD k 0 = r at *
  generalize Tables.myG.getD k 0 = g at *
  generalize Tables.myB.getD k 0 = b at *
  dsimp only
  refine ⟨by exact_mod_cast h1, by exact_mod_cast h2, by exact_mod_cast h3, ?_, ?_⟩
  · have : ((0.99999 : ℚ) : ℝ) ≤ ((r + g + b : ℚ) : ℝ) := by exact_mod_cast h4
    push_cast at this; exact this
  · have : ((r + g + b : ℚ) : ℝ) ≤ ((1 + 1e-8 : ℚ) : ℝ) := by exact_mod_cast h5
    push_cast at this; exact this

/-- C59 [R]: components in [0,1] give a physically plausible reflectance: every sample lies in
[0, 1 + 1e-8]. -/
theorem C59_bounds (rgb : RGBf ℝ) (hr : 0 ≤ rgb.r ∧ rgb.r ≤ 1) (hg : 0 ≤ rgb.g ∧ rgb.g ≤ 1)
    (hb : 0 ≤ rgb.b ∧ rgb.b ≤ 1) (s : VSPD ℝ) (h : upliftMy rgb = .ok s) :
    ∀ p ∈ s.samples, 0 ≤ p.v ∧ p.v ≤ 1 + 1e-8 := by
  obtain ⟨-, hl, hs⟩ := uplift_unique h
  intro p hp
  obtain ⟨k, hk, rfl⟩ := List.mem_iff_getElem.1 hp
  have := hs k (by omega)
  rw [List.getElem?_eq_getElem hk, Option.some.injEq] at this
  rw [this]
  obtain ⟨h1, h2, h3, h4, h5⟩ := my_real k (by omega)
  refine ⟨?_, ?_⟩
  · have := mul_nonneg h1 hr.1
    have := mul_nonneg h2 hg.1
    have := mul_nonneg h3 hb.1
    show 0 ≤ _ + _ + _
    linarith
  · have := mul_le_mul_of_nonneg_left hr.2 h1
    have := mul_le_mul_of_nonneg_left hg.2 h2
    have := mul_le_mul_of_nonneg_left hb.2 h3
    show _ + _ + _ ≤ _
    linarith

/-- C59 [R]: white is uplifted to a nearly perfect reflector. -/
theorem C59_white (s : VSPD ℝ) (h : upliftMy ⟨1, 1, 1⟩ = .ok s) : ∀ p ∈ s.samples, 0.99999 ≤ p.v := by
  obtain ⟨-, hl, hs⟩ := uplift_unique h
  intro p hp
  obtain ⟨k, hk, rfl⟩ := List.mem_iff_getElem.1 hp
  have := hs k (by omega)
  rw [List.getElem?_eq_getElem hk, Option.some.injEq] at this
  rw [this]
  obtain ⟨-, -, -, h4, -⟩ := my_real k (by omega)
  show _ ≤ _ * 1 + _ * 1 + _ * 1
  linarith

/-- Not vacuous: the call returns for every colour, and the basis is not degenerate: red is uplifted to
0.327... at 380 nm. -/
example : ∃ s, upliftMy (⟨1, 0, 0⟩ : RGBf ℝ) = .ok s ∧ s.samples[0]? = some ⟨380, 0.327457413827055⟩ := by
  obtain ⟨s, h, -, -, hs⟩ := C59_samples ⟨1, 0, 0⟩
  refine ⟨s, h, ?_⟩
  rw [hs 0 (by norm_num)]
  simp [Spec.my, Tables.myR]

end CS

import Verif.Props.Brighter
import Verif.Props.Uplift
import Verif.Props.Smits

/-!
# A brighter RGB colour is uplifted to a brighter spectrum (C117)
-/

namespace CS

/-! ### specification -/

/-- no component of `p` exceeds that of `q` -/
def Spec.RgbBelow (p q : RGBf ℝ) : Prop := p.r ≤ q.r ∧ p.g ≤ q.g ∧ p.b ≤ q.b

theorem my_pos : ∀ k < 81, 0 < Tables.myR.getD k 0 ∧ 0 < Tables.myG.getD k 0 ∧ 0 < Tables.myB.getD k 0 := by decide +kernel

theorem my_real_pos (k : ℕ) (hk : k < 81) : 0 < (Spec.my k).1 ∧ 0 < (Spec.my k).2.1 ∧ 0 < (Spec.my k).2.2 := by
  obtain ⟨h1, h2, h3⟩ := my_pos k hk
  unfold Spec.my
  dsimp only
  exact ⟨by exact_mod_cast h1, by exact_mod_cast h2, by exact_mod_cast h3⟩

theorem uplift_sampled {p : RGBf ℝ} {s : VSPD ℝ} (h : upliftMy p = .ok s) : Spec.SampledEvery 5 4 81 s := by
  obtain ⟨s', h', hsh, hl, hk⟩ := C59_samples p
  rw [h'] at h
  cases h
  refine ⟨by rw [hsh]; norm_num, ?_⟩
  apply List.ext_getElem?
  intro k
  by_cases hk' : k < 81
  · simp only [VSPD.wavelengths, List.getElem?_map, hk k hk', List.getElem?_range hk', Option.map_some, Option.some.injEq]
    push_cast
    ring
  · rw [List.getElem?_eq_none (by simp [VSPD.wavelengths, hl]; omega), List.getElem?_eq_none (by simp; omega)]

theorem uplift_value {p : RGBf ℝ} {s : VSPD ℝ} (h : upliftMy p = .ok s) {k : ℕ} (hk : k < 81) :
    s.samples[k]? = some ⟨380 + k * 5, (Spec.my k).1 * p.r + (Spec.my k).2.1 * p.g + (Spec.my k).2.2 * p.b⟩ := by
  obtain ⟨s', h', -, -, hs⟩ := C59_samples p
  rw [h'] at h
  cases h
  exact hs k hk

/-- C117 [R]: of two linear colours the one with no smaller component is uplifted to a spectrum that is nowhere lower. -/
theorem C117_spectrum (p q : RGBf ℝ) (h : Spec.RgbBelow p q) (s t : VSPD ℝ) (hs : upliftMy p = .ok s)
    (ht : upliftMy q = .ok t) : s.wavelengths = t.wavelengths ∧ Spec.Below s t := by
  have S := uplift_sampled hs
  have T := uplift_sampled ht
  refine ⟨S.wavelengths.trans T.wavelengths.symm, List.forall₂_iff_get.2 ⟨?_, fun k h1 h2 => ?_⟩⟩
  · simp [VSPD.values, S.length, T.length]
  · have hk : k < 81 := by simpa [VSPD.values, S.length] using h1
    obtain ⟨a, b, c⟩ := my_real_pos k hk
    have e1 := uplift_value hs hk
    have e2 := uplift_value ht hk
    rw [List.getElem?_eq_getElem (by rw [S.length]; exact hk), Option.some.injEq] at e1
    rw [List.getElem?_eq_getElem (by rw [T.length]; exact hk), Option.some.injEq] at e2
    simp only [VSPD.values, List.get_eq_getElem, List.getElem_map, e1, e2]
    have := mul_le_mul_of_nonneg_left h.1 a.le
    have := mul_le_mul_of_nonneg_left h.2.1 b.le
    have := mul_le_mul_of_nonneg_left h.2.2 c.le
    linarith

/-- C117 [R]: under each shipped D illuminant its X, Y, Z and lightness are no less, and if the colours differ its luminance
and lightness are greater. -/
theorem C117_xyz (e : List (ℚ × ℚ) × XYY ℝ) (he : e ∈ Spec.dSeries) (il : VSPD ℝ) (cmf : CMF ℝ)
    (hil : Spectra.vspd e.1 = .ok il) (hc : Spectra.cie1931 = .ok cmf) (p q : RGBf ℝ) (h : Spec.RgbBelow p q) :
    ∃ s t N, upliftMy p = .ok s ∧ upliftMy q = .ok t ∧ ∀ fuel, N ≤ fuel → ∃ x y, s.toXyz fuel il cmf = .ok x ∧
      t.toXyz fuel il cmf = .ok y ∧ Spec.NoDarker x y ∧ (p ≠ q → Spec.Lighter x y) := by
  obtain ⟨s, hs, -⟩ := C59_samples p
  obtain ⟨t, ht, -⟩ := C59_samples q
  obtain ⟨N, hN⟩ := C116_five_nm e he il cmf hil hc s t 4 81 (by norm_num) (by norm_num) (uplift_sampled hs)
    (uplift_sampled ht) (C117_spectrum p q h s t hs ht).2
  refine ⟨s, t, N, hs, ht, fun fuel hf => ?_⟩
  obtain ⟨x, y, hx, hy, h1, h2⟩ := hN fuel hf
  refine ⟨x, y, hx, hy, h1, fun hne => h2 ?_⟩
  refine ⟨_, _, _, ?_, List.mem_iff_getElem?.2 ⟨0, uplift_value hs (by norm_num)⟩,
    List.mem_iff_getElem?.2 ⟨0, uplift_value ht (by norm_num)⟩, ?_⟩
  · norm_num
  · obtain ⟨a, b, c⟩ := my_real_pos 0 (by norm_num)
    have h1 := mul_le_mul_of_nonneg_left h.1 a.le
    have h2 := mul_le_mul_of_nonneg_left h.2.1 b.le
    have h3 := mul_le_mul_of_nonneg_left h.2.2 c.le
    rcases h.1.eq_or_lt with e1 | l1
    · rcases h.2.1.eq_or_lt with e2 | l2
      · rcases h.2.2.eq_or_lt with e3 | l3
        · exact absurd (by cases p; cases q; simp_all) hne
        · have := mul_lt_mul_of_pos_left l3 c; linarith
      · have := mul_lt_mul_of_pos_left l2 b; linarith
    · have := mul_lt_mul_of_pos_left l1 a; linarith

/-- Not vacuous: a dark and a bright orange. -/
example : Spec.RgbBelow ⟨0.2, 0.1, 0⟩ ⟨0.8, 0.4, 0⟩ ∧ (⟨0.2, 0.1, 0⟩ : RGBf ℝ) ≠ ⟨0.8, 0.4, 0⟩ :=
  ⟨⟨by norm_num, by norm_num, le_rfl⟩, fun h => by simp only [RGBf.mk.injEq] at h; norm_num at h⟩

/-! ### in f64 -/

section
variable {f : Fmt}

theorem Up.mul_left [Libm f] {a b w : FP f} (h : Up a b) (ha : a.isFinite = true) (hb : b.isFinite = true)
    (hw : w.isFinite = true) (h0 : 0 ≤ w.val) : Up (w * a) (w * b) := by
  rw [FP.mul_finite_eq hw ha, FP.mul_finite_eq hw hb]
  have a0 := FP.val_le zero_fin.1 ha h.1
  rw [zero_fin.2] at a0
  exact ⟨up_zero_ofQ (mul_nonneg h0 a0), FP.ofQ_le (mul_le_mul_of_nonneg_left (FP.val_le ha hb h.2) h0)⟩

end

/-- C117 [F]: in f64 the order is kept exactly: for finite components that are not negative, no sample of the brighter
colour's spectrum is below that of the other, at the same wavelengths. -/
theorem C117_f64 [Libm Fmt.b64] (p q : RGBf (FP Fmt.b64)) (hp : ∀ i, (rgbVec p i).isFinite = true ∧ 0 ≤ (rgbVec p i).val)
    (hq : ∀ i, (rgbVec q i).isFinite = true) (h : ∀ i, (rgbVec p i).val ≤ (rgbVec q i).val) :
    ∃ s t, upliftMy p = .ok s ∧ upliftMy q = .ok t ∧
      List.Forall₂ (fun a b => a.nm = b.nm ∧ FP.le a.v b.v = true) s.samples t.samples := by
  refine ⟨_, _, uplift64 p, uplift64 q, ?_⟩
  have hu : ∀ i, Up (rgbVec p i) (rgbVec q i) := fun i =>
    ⟨FP.le_val zero_fin.1 (hp i).1 (by rw [zero_fin.2]; exact (hp i).2), FP.le_val (hp i).1 (hq i) (h i)⟩
  simp only [List.forall₂_map_left_iff, List.forall₂_map_right_iff]
  refine List.forall₂_same.2 fun k hk => ⟨rfl, ?_⟩
  obtain ⟨m1, m2, m3⟩ := my_pos k (List.mem_range.1 hk)
  obtain ⟨m4, m5, m6, -, m7⟩ := my_facts k (List.mem_range.1 hk)
  have hw : ∀ w : ℚ, 0 ≤ w → w ≤ 2 → (FP.lit w : FP Fmt.b64).isFinite = true ∧ 0 ≤ (FP.lit w : FP Fmt.b64).val :=
    fun w h0 h1 => by
      have := in_lit (f := Fmt.b64) std_b64 (L := 0) (H := 2) (by short) (by short) h0 h1
      exact ⟨this.1, this.2.1⟩
  have m8 : (1:ℚ) + 1e-8 ≤ 2 := by norm_num
  have w1 := hw _ m4 (by linarith)
  have w2 := hw _ m5 (by linarith)
  have w3 := hw _ m6 (by linarith)
  exact ((((hu 0).mul_left (hp 0).1 (hq 0) w1.1 w1.2).add ((hu 1).mul_left (hp 1).1 (hq 1) w2.1 w2.2)).add
    ((hu 2).mul_left (hp 2).1 (hq 2) w3.1 w3.2)).2

/-- Not vacuous: (1/4, 1/4, 1/2) below (1/2, 1/2, 1). -/
example : (∀ i, (rgbVec (⟨dyadic Fmt.b64 1 2, dyadic Fmt.b64 1 2, dyadic Fmt.b64 1 1⟩ : RGBf (FP Fmt.b64)) i).isFinite = true ∧
      0 ≤ (rgbVec (⟨dyadic Fmt.b64 1 2, dyadic Fmt.b64 1 2, dyadic Fmt.b64 1 1⟩ : RGBf (FP Fmt.b64)) i).val) ∧
    (∀ i, (rgbVec (⟨dyadic Fmt.b64 1 1, dyadic Fmt.b64 1 1, dyadic Fmt.b64 1 0⟩ : RGBf (FP Fmt.b64)) i).isFinite = true) ∧
    ∀ i, (rgbVec (⟨dyadic Fmt.b64 1 2, dyadic Fmt.b64 1 2, dyadic Fmt.b64 1 1⟩ : RGBf (FP Fmt.b64)) i).val ≤
      (rgbVec (⟨dyadic Fmt.b64 1 1, dyadic Fmt.b64 1 1, dyadic Fmt.b64 1 0⟩ : RGBf (FP Fmt.b64)) i).val := by
  simp only [Fin.forall_fin_succ, IsEmpty.forall_iff, and_true]
  exact of_decide_eq_true (by krefl)

end CS

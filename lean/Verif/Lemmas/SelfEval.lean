import Verif.Lemmas.ViaEval32
import Verif.Lemmas.ViaEval64

/-!
# Converting a space to itself

The diagonals of the tables of conversion matrices.
-/

namespace CS

/-- the matrix leaves colours nearly as they are: a colour whose components are at most `M` moves by at most `δ M` -/
def Spec.NearlyOne {f : Fmt} (m : Matrix33 (FP f)) (δ : ℚ) : Prop :=
  ∀ (c : RGBf (FP f)) (M : ℚ), 1 / 2 ^ 100 ≤ M → M ≤ 2 ^ 100 →
    (∀ i, (rgbVec c i).isFinite = true ∧ |(rgbVec c i).val| ≤ M) → ∀ i,
    (rgbVec (m * c) i).isFinite = true ∧ |(rgbVec (m * c) i).val - (rgbVec c i).val| ≤ δ * M

/-- the space exists, so does the matrix from it to itself, and that matrix is nearly the identity -/
def Spec.SelfNear {f : Fmt} [Libm f] (r : Res (ColorSpaceRGB (FP f))) (δ : ℚ) : Prop :=
  ∃ a m, r = .ok a ∧ rgbToRgbMatrix a a = .ok m ∧ Spec.NearlyOne m δ

section
variable {f : Fmt}

/-- what the checks establish -/
structure SelfOk (m : Matrix33 (FP f)) (δ : ℚ) : Prop where
  fin : m.fin = true
  ok : ∃ α, (∀ i, rowAbs m i ≤ α) ∧ α ≤ 64 ∧ 1 / 2 ≤ α ∧
    ∀ i, (∑ j, |m.q i j - if i = j then 1 else 0|) + 4.1 * f.u * α ≤ δ

theorem SelfOk.near (hf : Wide f) {m : Matrix33 (FP f)} {δ : ℚ} (h : SelfOk m δ) : Spec.NearlyOne m δ := by
  intro c M h1 h2 hc i
  obtain ⟨α, hα, hα2, hα1, hok⟩ := h.ok
  have M0 : 0 < M := lt_of_lt_of_le (by positivity) h1
  obtain ⟨r1, r2, -⟩ := mulc_err hf h.fin hα (X := M) (by
      calc α * M ≤ 64 * 2 ^ 100 := mul_le_mul hα2 h2 M0.le (by norm_num)
        _ ≤ 2 ^ 115 := by norm_num) hc i
  refine ⟨r1, ?_⟩
  have he := eta_small hf (M := M) (le_trans (by norm_num) h1)
  have h3 := abs_sub_le (rgbVec (m * c) i).val (∑ j, m.q i j * (rgbVec c j).val) (rgbVec c i).val
  have h4 : |∑ j, m.q i j * (rgbVec c j).val - (rgbVec c i).val| ≤
      (∑ j, |m.q i j - if i = j then 1 else 0|) * M := by
    have : ∑ j, m.q i j * (rgbVec c j).val - (rgbVec c i).val =
        ∑ j, (m.q i j - if i = j then 1 else 0) * (rgbVec c j).val := by
      simp only [sub_mul, Finset.sum_sub_distrib, ite_mul, one_mul, zero_mul, Finset.sum_ite_eq, Finset.mem_univ,
        if_true]
    rw [this]
    exact abs_dot3_le le_rfl fun j => (hc j).2
  have h5 := mul_le_mul_of_nonneg_right (hok i) M0.le
  have hu0 := f.u_pos
  have h6 := mul_le_mul_of_nonneg_left hα1 (mul_nonneg hu0.le M0.le)
  set D := ∑ j, |m.q i j - if i = j then 1 else 0|
  nlinarith

end

/-- row sums of `|n - 1|`, scaled by `2^K` -/
def selfInt (K : ℕ) (n : Matrix33 ℤ) (i : Fin 3) : ℕ :=
  let e (j : Fin 3) : ℕ := (n.get i j - if i = j then 2 ^ K else 0).natAbs
  e 0 + e 1 + e 2

/-- integer form of `SelfOk`: the error is `x / (10 · 2^(p + K))` -/
def selfCheck (p K : ℕ) (n : Matrix33 ℤ) (δ : ℚ) : Bool :=
  sizeInt K n && decide ((10 * 2 ^ p * (max (selfInt K n 0) (max (selfInt K n 1) (selfInt K n 2))) + 41 * normInt n
    : ℕ) * (δ.den : ℤ) ≤ δ.num * (10 * 2 ^ (p + K) : ℕ))

theorem selfCheck_sound {f : Fmt} {p K : ℕ} (hp : f.u = 1 / 2 ^ p) {n : Matrix33 ℤ} {m : Matrix33 (FP f)} {δ : ℚ}
    (hm : m.isInt K n = true) (h : selfCheck p K n δ = true) : SelfOk m δ := by
  obtain ⟨hf, hq⟩ := Matrix33.isInt_sound hm
  unfold selfCheck at h
  rw [Bool.and_eq_true, decide_eq_true_eq] at h
  obtain ⟨s1, s2⟩ := sizeInt_sound h.1
  refine ⟨hf, _, rowAbs_int hq, s2, s1, fun i => ?_⟩
  have h2 := le_of_check (by positivity) h.2
  refine le_trans (b :=  (10 * 2 ^ p * (selfInt K n i : ℚ) + 41 * normInt n) / (10 * 2 ^ (p + K))) (le_of_eq ?_) (le_trans ?_ h2)
  · have e : ∀ j, |m.q i j - if i = j then 1 else 0| =
        (((n.get i j - if i = j then 2 ^ K else 0).natAbs : ℕ) : ℚ) / 2 ^ K := fun j => by
      rw [Nat.cast_natAbs, Int.cast_abs, ← abs_of_pos (show (0:ℚ) < 2 ^ K by positivity), ← abs_div]
      congr 1
      rw [hq, eq_div_iff (by positivity)]
      split_ifs <;> push_cast <;> field_simp <;> ring
    rw [Fin.sum_univ_three, e, e, e, hp]
    unfold selfInt
    push_cast
    rw [pow_add]
    field_simp
    ring
  · push_cast
    gcongr
    have : selfInt K n i ≤ max (selfInt K n 0) (max (selfInt K n 1) (selfInt K n 2)) := by fin_cases i <;> simp
    exact_mod_cast this

theorem self_of_check {f : Fmt} (L : Libm f) (hf : Wide f) {p K : ℕ} {tab : List (ColorSpaceRGB (FP f) × ℚ)}
    {t : List (List (Matrix33 ℤ))} (h : ConvTable p K (tab.map Prod.fst) t)
    (hg : ((List.range t.length).zip (t.zip (tab.map Prod.snd))).all (fun x => match x.2.1[x.1]? with
      | some n => selfCheck p K n x.2.2
      | none => false) = true)
    {l : List (Res (ColorSpaceRGB (FP f)) × ℚ)} (hl : List.Forall₂ Linked l tab) :
    ∀ r ∈ l, Spec.SelfNear r.1 r.2 := by
  intro r hr
  obtain ⟨a, ha, a', ea, a1, a2, a3, a4⟩ := forall₂_mem hl r hr
  obtain ⟨i, hi⟩ := List.mem_iff_getElem?.1 ha
  obtain ⟨row, n, e1, e2, e3⟩ := table_lookup L h hi hi
  obtain ⟨A, hA, hk⟩ := e3 a' a' a2 a3 a1 a3
  refine ⟨a', A, ea, hA, ?_⟩
  rw [List.all_eq_true] at hg
  have hi' : i < t.length := (List.getElem?_eq_some_iff.1 e1).1
  have h1 := hg _ (mem_zip_of_getElem? (List.getElem?_range hi') (by
    rw [List.getElem?_zip_eq_some]
    exact ⟨e1, (show (tab.map Prod.snd)[i]? = some a.2 by rw [List.getElem?_map, hi]; rfl)⟩ :
      (t.zip (tab.map Prod.snd))[i]? = some (row, a.2)))
  dsimp only at h1
  rw [e2] at h1
  rw [a4]
  exact (selfCheck_sound h.hp hk h1).near hf

namespace Tripb32

/-- tolerances of the conversions to itself -/
def tabS : List (ColorSpaceRGB (FP F) × ℚ) :=
  [(srgb, 7.1e-5), (adobeRgb1998, 1.6e-5), (alexaWideGamut, 2.3e-6), (aces, 3.1e-7), (srgbDrv, 5e-7), (bt709, 5e-7), (bt2020, 5e-7), (dciP3, 5e-7), (dciP3D65, 5e-7), (acesCg, 5e-7)]

theorem selfs : ((List.range convs.length).zip (convs.zip (tabS.map Prod.snd))).all (fun x => match x.2.1[x.1]? with
    | some n => selfCheck 24 57 n x.2.2
    | none => false) = true := by
  krefl

theorem linkS [L : Libm F] : List.Forall₂ Linked (Spec.xyzTolerance F 7.1e-5 1.6e-5 2.3e-6 3.1e-7 5e-7) tabS := by
  unfold Spec.xyzTolerance tabS
  dsimp only
  exact .cons (linked_of_check (srgb_same l L) link_srgb) <|
    .cons (linked_of_check (adobeRgb1998_same l L) link_adobeRgb1998) <|
    .cons (linked_of_check (alexaWideGamut_same l L) link_alexaWideGamut) <|
    .cons (linked_of_check (aces_same l L) link_aces) <|
    .cons (linked_of_check (srgbDrv_same l L) link_srgbDrv) <|
    .cons (linked_of_check (bt709_same l L) link_bt709) <|
    .cons (linked_of_check (bt2020_same l L) link_bt2020) <|
    .cons (linked_of_check (dciP3_same l L) link_dciP3) <|
    .cons (linked_of_check (dciP3D65_same l L) link_dciP3D65) <|
    .cons (linked_of_check (acesCg_same l L) link_acesCg) .nil

end Tripb32

namespace Tripb64

/-- tolerances of the conversions to itself -/
def tabS : List (ColorSpaceRGB (FP F) × ℚ) :=
  [(srgb, 7e-5), (adobeRgb1998, 1.5e-5), (alexaWideGamut, 2.1e-6), (aces, 1.1e-10), (srgbDrv, 8e-16), (bt709, 8e-16), (bt2020, 8e-16), (dciP3, 8e-16), (dciP3D65, 8e-16), (acesCg, 8e-16)]

theorem selfs : ((List.range convs.length).zip (convs.zip (tabS.map Prod.snd))).all (fun x => match x.2.1[x.1]? with
    | some n => selfCheck 53 116 n x.2.2
    | none => false) = true := by
  krefl

theorem linkS [L : Libm F] : List.Forall₂ Linked (Spec.xyzTolerance F 7e-5 1.5e-5 2.1e-6 1.1e-10 8e-16) tabS := by
  unfold Spec.xyzTolerance tabS
  dsimp only
  exact .cons (linked_of_check (srgb_same l L) link_srgb) <|
    .cons (linked_of_check (adobeRgb1998_same l L) link_adobeRgb1998) <|
    .cons (linked_of_check (alexaWideGamut_same l L) link_alexaWideGamut) <|
    .cons (linked_of_check (aces_same l L) link_aces) <|
    .cons (linked_of_check (srgbDrv_same l L) link_srgbDrv) <|
    .cons (linked_of_check (bt709_same l L) link_bt709) <|
    .cons (linked_of_check (bt2020_same l L) link_bt2020) <|
    .cons (linked_of_check (dciP3_same l L) link_dciP3) <|
    .cons (linked_of_check (dciP3D65_same l L) link_dciP3D65) <|
    .cons (linked_of_check (acesCg_same l L) link_acesCg) .nil

end Tripb64

end CS

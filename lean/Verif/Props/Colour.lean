import Verif.Lemmas.FPArith
import Verif.Num.Real
import Mathlib.Algebra.BigOperators.Group.List.Basic

/-!
# C06, C07, C08, C61, C63, C64: colours
-/

namespace CS

/-! ## C06: indexing -/

section
variable {T : Type}

/-- C06 [G]: reading. -/
theorem C06_rgb_index (c : RGBf T) :
    c.index 0 = .ok c.r ∧ c.index 1 = .ok c.g ∧ c.index 2 = .ok c.b ∧
    ∀ i, 3 ≤ i → c.index i = .error .index := by
  refine ⟨rfl, rfl, rfl, fun i hi => ?_⟩
  obtain ⟨k, rfl⟩ := Nat.exists_eq_add_of_le' hi
  rfl

/-- C06 [G]: writing: the write succeeds exactly for indices below 3, the written component reads
back, all others are unchanged, and writing back what was read changes nothing. -/
theorem C06_rgb_setIndex (c : RGBf T) (i : ℕ) (v : T) :
    (3 ≤ i → c.setIndex i v = .error .index) ∧
    (i < 3 → ∃ c', c.setIndex i v = .ok c' ∧ c'.index i = .ok v ∧
      ∀ j, j ≠ i → c'.index j = c.index j) ∧
    (∀ w, c.index i = .ok w → c.setIndex i w = .ok c) := by
  match i with
  | 0 =>
    refine ⟨by omega, fun _ => ⟨_, rfl, rfl, fun j hj => ?_⟩, fun w hw => ?_⟩
    · match j with
      | 0 => exact absurd rfl hj
      | 1 => rfl
      | 2 => rfl
      | n + 3 => rfl
    · simp only [RGBf.index, Except.ok.injEq] at hw; subst hw; rfl
  | 1 =>
    refine ⟨by omega, fun _ => ⟨_, rfl, rfl, fun j hj => ?_⟩, fun w hw => ?_⟩
    · match j with
      | 0 => rfl
      | 1 => exact absurd rfl hj
      | 2 => rfl
      | n + 3 => rfl
    · simp only [RGBf.index, Except.ok.injEq] at hw; subst hw; rfl
  | 2 =>
    refine ⟨by omega, fun _ => ⟨_, rfl, rfl, fun j hj => ?_⟩, fun w hw => ?_⟩
    · match j with
      | 0 => rfl
      | 1 => rfl
      | 2 => exact absurd rfl hj
      | n + 3 => rfl
    · simp only [RGBf.index, Except.ok.injEq] at hw; subst hw; rfl
  | n + 3 => exact ⟨fun _ => rfl, by omega, fun w hw => by simp [RGBf.index] at hw⟩

/-- C06 [G]: reading an XYZ. -/
theorem C06_xyz_index (c : XYZ T) :
    c.index 0 = .ok c.x ∧ c.index 1 = .ok c.y ∧ c.index 2 = .ok c.z ∧
    ∀ i, 3 ≤ i → c.index i = .error .index := by
  refine ⟨rfl, rfl, rfl, fun i hi => ?_⟩
  obtain ⟨k, rfl⟩ := Nat.exists_eq_add_of_le' hi
  rfl

/-- C06 [G]: writing an XYZ. -/
theorem C06_xyz_setIndex (c : XYZ T) (i : ℕ) (v : T) :
    (3 ≤ i → c.setIndex i v = .error .index) ∧
    (i < 3 → ∃ c', c.setIndex i v = .ok c' ∧ c'.index i = .ok v ∧
      ∀ j, j ≠ i → c'.index j = c.index j) ∧
    (∀ w, c.index i = .ok w → c.setIndex i w = .ok c) := by
  match i with
  | 0 =>
    refine ⟨by omega, fun _ => ⟨_, rfl, rfl, fun j hj => ?_⟩, fun w hw => ?_⟩
    · match j with
      | 0 => exact absurd rfl hj
      | 1 => rfl
      | 2 => rfl
      | n + 3 => rfl
    · simp only [XYZ.index, Except.ok.injEq] at hw; subst hw; rfl
  | 1 =>
    refine ⟨by omega, fun _ => ⟨_, rfl, rfl, fun j hj => ?_⟩, fun w hw => ?_⟩
    · match j with
      | 0 => rfl
      | 1 => exact absurd rfl hj
      | 2 => rfl
      | n + 3 => rfl
    · simp only [XYZ.index, Except.ok.injEq] at hw; subst hw; rfl
  | 2 =>
    refine ⟨by omega, fun _ => ⟨_, rfl, rfl, fun j hj => ?_⟩, fun w hw => ?_⟩
    · match j with
      | 0 => rfl
      | 1 => rfl
      | 2 => exact absurd rfl hj
      | n + 3 => rfl
    · simp only [XYZ.index, Except.ok.injEq] at hw; subst hw; rfl
  | n + 3 => exact ⟨fun _ => rfl, by omega, fun w hw => by simp [XYZ.index] at hw⟩

/-! ## C07: slice casting -/

theorem group3_spec {α β : Type} (mk : α → α → α → β) : ∀ (s : List α), s.length % 3 = 0 →
    (group3 mk s).length = s.length / 3 ∧
    ∀ k, k < s.length / 3 → ∃ a b c, s[3 * k]? = some a ∧ s[3 * k + 1]? = some b ∧
      s[3 * k + 2]? = some c ∧ (group3 mk s)[k]? = some (mk a b c)
  | [], _ => by simp [group3]
  | [_], h => by simp at h
  | [_, _], h => by simp at h
  | a :: b :: c :: rest, h => by
    have h' : rest.length % 3 = 0 := by simp at h; omega
    obtain ⟨h1, h2⟩ := group3_spec mk rest h'
    have hl : (a :: b :: c :: rest).length / 3 = rest.length / 3 + 1 := by simp; omega
    refine ⟨by rw [hl, group3]; simp [h1], fun k hk => ?_⟩
    cases k with
    | zero => exact ⟨a, b, c, by simp [group3]⟩
    | succ k =>
      obtain ⟨x, y, z, e1, e2, e3, e4⟩ := h2 k (by rw [hl] at hk; omega)
      refine ⟨x, y, z, ?_, ?_, ?_, ?_⟩
      · rw [show 3 * (k + 1) = 3 * k + 3 by ring]; simpa using e1
      · rw [show 3 * (k + 1) + 1 = 3 * k + 1 + 3 by ring]; simpa using e2
      · rw [show 3 * (k + 1) + 2 = 3 * k + 2 + 3 by ring]; simpa using e3
      · simpa [group3] using e4

theorem group3_flatten {α β : Type} (mk : α → α → α → β) (un : β → List α)
    (hun : ∀ a b c, un (mk a b c) = [a, b, c]) : ∀ (s : List α), s.length % 3 = 0 →
    (group3 mk s).flatMap un = s
  | [], _ => by simp [group3]
  | [_], h => by simp at h
  | [_, _], h => by simp at h
  | a :: b :: c :: rest, h => by
    have h' : rest.length % 3 = 0 := by simp at h; omega
    simp [group3, hun, group3_flatten mk un hun rest h']

/-- C07 [G] for `RGBf::cast_slice`: panics exactly when the length is no multiple of 3. -/
theorem C07_rgbf_cast_panics (s : List T) :
    (∃ e, RGBf.castSlice s = .error e) ↔ ¬ (3 ∣ s.length) := by
  unfold RGBf.castSlice
  rw [Nat.dvd_iff_mod_eq_zero]
  split <;> simp_all

/-- C07 [G] for `RGBf::cast_slice`: length, contents and order, nothing lost. -/
theorem C07_rgbf_cast (s : List T) (px : List (RGBf T)) (h : RGBf.castSlice s = .ok px) :
    px.length = s.length / 3 ∧
    (∀ k, k < px.length → ∃ a b c, s[3 * k]? = some a ∧ s[3 * k + 1]? = some b ∧
      s[3 * k + 2]? = some c ∧ px[k]? = some ⟨a, b, c⟩) ∧
    px.flatMap (fun c => [c.r, c.g, c.b]) = s := by
  unfold RGBf.castSlice at h
  split at h
  · simp at h
  · next h3 =>
    simp only [Except.ok.injEq] at h
    subst h
    have h3 : s.length % 3 = 0 := by simpa using h3
    obtain ⟨h1, h2⟩ := group3_spec RGBf.mk s h3
    exact ⟨h1, fun k hk => h2 k (by rw [← h1]; exact hk),
      group3_flatten _ _ (fun _ _ _ => rfl) s h3⟩

/-- C07 for `RGBu8::cast_slice`: panics. -/
theorem C07_rgbu8_cast_panics (s : List UInt8) :
    (∃ e, RGBu8.castSlice s = .error e) ↔ ¬ (3 ∣ s.length) := by
  unfold RGBu8.castSlice
  rw [Nat.dvd_iff_mod_eq_zero]
  split <;> simp_all

/-- C07 for `RGBu8::cast_slice`: contents. -/
theorem C07_rgbu8_cast (s : List UInt8) (px : List RGBu8) (h : RGBu8.castSlice s = .ok px) :
    px.length = s.length / 3 ∧
    (∀ k, k < px.length → ∃ a b c, s[3 * k]? = some a ∧ s[3 * k + 1]? = some b ∧
      s[3 * k + 2]? = some c ∧ px[k]? = some ⟨a, b, c⟩) ∧
    px.flatMap (fun c => [c.r, c.g, c.b]) = s := by
  unfold RGBu8.castSlice at h
  split at h
  · simp at h
  · next h3 =>
    simp only [Except.ok.injEq] at h
    subst h
    have h3 : s.length % 3 = 0 := by simpa using h3
    obtain ⟨h1, h2⟩ := group3_spec RGBu8.mk s h3
    exact ⟨h1, fun k hk => h2 k (by rw [← h1]; exact hk),
      group3_flatten _ _ (fun _ _ _ => rfl) s h3⟩

example : RGBu8.castSlice [1, 2, 3, 4, 5, 6] = .ok [⟨1, 2, 3⟩, ⟨4, 5, 6⟩] := rfl
example : RGBu8.castSlice [1, 2, 3, 4] = .error .assert := rfl

end

/-! ## C08: normalize -/

section
variable {f : Fmt} [Libm f]

theorem FP.flt_max (a b : FP f) : Flt.max a b = FP.max a b := rfl

theorem FP.max_spec (a b : FP f) (ha : a.isNaN = false) (hb : b.isNaN = false) :
    FP.le a (FP.max a b) = true ∧ FP.le b (FP.max a b) = true ∧
    (FP.max a b = a ∨ FP.max a b = b) ∧ (FP.max a b).isNaN = false := by
  obtain ⟨u, hu⟩ := FP.ext_of_not_nan ha
  obtain ⟨v, hv⟩ := FP.ext_of_not_nan hb
  unfold FP.max
  rw [ha, hb]
  simp only [Bool.false_eq_true, if_false, FP.lt, hu, hv, decide_eq_true_eq]
  by_cases h : u < v
  · simp [h, FP.le, hu, hv, h.le, hb]
  · simp [h, FP.le, hu, hv, not_lt.1 h, ha]

/-- C08 [F]: without NaN components, `hmax` bounds every component and is one of them. -/
theorem C08_hmax_ieee (c : RGBf (FP f)) (hr : c.r.isNaN = false) (hg : c.g.isNaN = false)
    (hb : c.b.isNaN = false) :
    Flt.le c.r (hmax c) = true ∧ Flt.le c.g (hmax c) = true ∧ Flt.le c.b (hmax c) = true ∧
    (hmax c = c.r ∨ hmax c = c.g ∨ hmax c = c.b) := by
  show FP.le c.r (FP.max c.r (FP.max c.g c.b)) = true ∧ FP.le c.g (FP.max c.r (FP.max c.g c.b)) = true ∧
    FP.le c.b (FP.max c.r (FP.max c.g c.b)) = true ∧ (FP.max c.r (FP.max c.g c.b) = c.r ∨ _)
  obtain ⟨a1, a2, a3, a4⟩ := FP.max_spec c.g c.b hg hb
  obtain ⟨b1, b2, b3, b4⟩ := FP.max_spec c.r (FP.max c.g c.b) hr a4
  have tr : ∀ x y z : FP f, FP.le x y = true → FP.le y z = true → FP.le x z = true := by
    intro x y z h1 h2
    obtain ⟨u, v, e1, e2, h1⟩ := (FP.le_iff _ _).1 h1
    obtain ⟨v', w, e2', e3, h2⟩ := (FP.le_iff _ _).1 h2
    rw [e2] at e2'; obtain rfl := Option.some.inj e2'
    exact (FP.le_iff _ _).2 ⟨u, w, e1, e3, h1.trans h2⟩
  refine ⟨b1, tr _ _ _ a1 b2, tr _ _ _ a2 b2, ?_⟩
  rcases b3 with h | h
  · exact Or.inl h
  · rcases a3 with h' | h'
    · right; left; exact h.trans h'
    · right; right; exact h.trans h'

/-- dividing by a positive finite upper bound gives at most one -/
theorem FP.div_le_one (a h : FP f) (hle : FP.le a h = true) (hf : h.isFinite = true)
    (hpos : 0 < h.val) : FP.le (a / h) (FP.fin 1 (FP.isRep_one f)) = true := by
  by_cases ha : a.isFinite = true
  · rw [FP.le_finite ha hf, decide_eq_true_eq] at hle
    rw [FP.div_finite ha hf hpos.ne']
    have hq : a.val / h.val ≤ 1 := (_root_.div_le_one hpos).2 hle
    have hq2 : roundQ f (a.val / h.val) ≤ 1 := by
      rw [← (FP.isRep_one f).1]; exact roundQ_mono f hq
    by_cases hb : |roundQ f (a.val / h.val)| < 2 ^ (f.emax + 1)
    · obtain ⟨h1, h2⟩ := FP.ofQ_finite (f := f) (a.sgn ^^ h.sgn) hb
      rw [FP.le_finite h1 rfl, h2]
      exact decide_eq_true hq2
    · unfold FP.ofQ
      rw [dif_neg hb]
      have hneg : a.val / h.val < 0 := by
        by_contra hcon
        have h0 := roundQ_nonneg f (not_lt.1 hcon)
        rw [abs_of_nonneg h0] at hb
        have : (1:ℚ) < 2 ^ (f.emax + 1) := one_lt_pow₀ (by norm_num) (by omega)
        linarith
      simp [hneg, FP.infOf, FP.le, FP.ext]
  · cases a with
    | nan => simp at hle
    | pinf =>
      rw [FP.le, FP.ext_finite hf] at hle
      simp [FP.ext] at hle
    | ninf =>
      have : (FP.ninf : FP f) / h = FP.ninf := by
        show FP.div FP.ninf h = _
        cases h <;> simp_all [FP.div, FP.isFinite, FP.sgn, FP.infOf, FP.val, hpos.le]
        exact hpos.le
      rw [this]; simp [FP.le, FP.ext]
    | nzero => simp at ha
    | fin q hq => simp at ha

/-- C08 [F]: if the largest component is finite and positive, `normalize` makes it exactly 1 and
no component exceeds 1, whatever the rounding. -/
theorem C08_normalize_ieee (c : RGBf (FP f)) (hr : c.r.isNaN = false) (hg : c.g.isNaN = false)
    (hb : c.b.isNaN = false) (hfin : (hmax c).isFinite = true)
    (hpos : Flt.lt (Flt.lit 0) (hmax c) = true) :
    ((normalize c).r = Flt.lit 1 ∨ (normalize c).g = Flt.lit 1 ∨ (normalize c).b = Flt.lit 1) ∧
    Flt.le (normalize c).r (Flt.lit 1) = true ∧ Flt.le (normalize c).g (Flt.lit 1) = true ∧
    Flt.le (normalize c).b (Flt.lit 1) = true := by
  obtain ⟨h1, h2, h3, h4⟩ := C08_hmax_ieee c hr hg hb
  have hp : 0 < (hmax c).val := by
    rw [FP.flt_lit0, FP.flt_lt, FP.lt_finite rfl hfin] at hpos
    exact of_decide_eq_true hpos
  rw [FP.flt_lit1]
  have hself := FP.div_self hfin hp.ne'
  refine ⟨?_, FP.div_le_one _ _ h1 hfin hp, FP.div_le_one _ _ h2 hfin hp,
    FP.div_le_one _ _ h3 hfin hp⟩
  rcases h4 with h | h | h
  · left
    show c.r / hmax c = _
    rw [← h]; exact hself
  · right; left
    show c.g / hmax c = _
    rw [← h]; exact hself
  · right; right
    show c.b / hmax c = _
    rw [← h]; exact hself

/-- Non-vacuity of `C08_normalize_ieee`: (1, 1/2, 0) in binary32. -/
example [Libm Fmt.b32] : ∃ c : RGBf (FP Fmt.b32), (hmax c).isFinite = true ∧
    Flt.lt (Flt.lit 0) (hmax c) = true ∧ c.r.isNaN = false := by
  refine ⟨⟨.fin 1 (by decide +kernel), .fin (1/2) (by decide +kernel), .nzero⟩, ?_⟩
  have : hmax (⟨.fin 1 (by decide +kernel), .fin (1/2) (by decide +kernel), .nzero⟩ : RGBf (FP Fmt.b32))
      = .fin 1 (by decide +kernel) := by
    simp only [hmax, FP.flt_max]
    unfold FP.max
    norm_num [FP.isNaN]
  rw [this, FP.flt_lit0]
  refine ⟨rfl, ?_, rfl⟩
  rw [FP.flt_lt, FP.lt_fin]; norm_num

end

/-- C08 [R]: exact arithmetic: `hmax` is the maximum and, if positive, becomes 1. -/
theorem C08_normalize_real (c : RGBf ℝ) :
    hmax c = max c.r (max c.g c.b) ∧
    (0 < max c.r (max c.g c.b) → max (normalize c).r (max (normalize c).g (normalize c).b) = 1) := by
  refine ⟨rfl, fun h => ?_⟩
  show max (c.r / max c.r (max c.g c.b)) (max (c.g / max c.r (max c.g c.b)) (c.b / max c.r (max c.g c.b))) = 1
  rw [max_div_div_right h.le, max_div_div_right h.le, div_self h.ne']

/-- C08 [R]: the documented claim ("the largest component is 1") fails for all-negative colours:
(-1,-2,-4) becomes (1,2,4), whose largest component is 4. -/
theorem C08_normalize_negative_counterexample :
    normalize (⟨-1, -2, -4⟩ : RGBf ℝ) = ⟨1, 2, 4⟩ := by
  have : hmax (⟨-1, -2, -4⟩ : RGBf ℝ) = -1 := by
    show max (-1:ℝ) (max (-2) (-4)) = -1
    norm_num
  ext
  · show (-1 : ℝ) / hmax _ = 1
    rw [this]; norm_num
  · show (-2 : ℝ) / hmax _ = 2
    rw [this]; norm_num
  · show (-4 : ℝ) / hmax _ = 4
    rw [this]; norm_num

/-! ## C61: sums -/

section
variable {T : Type} [Add T] [Sub T] [Mul T] [Div T] [Neg T] [Flt T]

omit [Sub T] [Mul T] [Div T] [Neg T] in
/-- C61 [G]: the empty sum is black and each further element is added to the running sum. -/
theorem C61_sum_generic (l : List (XYZ T)) (v : XYZ T) (m : List (RGBf T)) (c : RGBf T) :
    XYZ.sum ([] : List (XYZ T)) = ⟨Flt.zero, Flt.zero, Flt.zero⟩ ∧
    XYZ.sum (l ++ [v]) = ⟨(XYZ.sum l).x + v.x, (XYZ.sum l).y + v.y, (XYZ.sum l).z + v.z⟩ ∧
    RGBf.sum ([] : List (RGBf T)) = ⟨Flt.zero, Flt.zero, Flt.zero⟩ ∧
    RGBf.sum (m ++ [c]) = ⟨(RGBf.sum m).r + c.r, (RGBf.sum m).g + c.g, (RGBf.sum m).b + c.b⟩ := by
  refine ⟨rfl, ?_, rfl, ?_⟩
  · unfold XYZ.sum; rw [List.foldl_append]; rfl
  · unfold RGBf.sum; rw [List.foldl_append]; rfl
end

/-- C61 [R]: the sum is the component-wise sum of the list. -/
theorem C61_sum_real (l : List (XYZ ℝ)) (m : List (RGBf ℝ)) :
    XYZ.sum l = ⟨(l.map XYZ.x).sum, (l.map XYZ.y).sum, (l.map XYZ.z).sum⟩ ∧
    RGBf.sum m = ⟨(m.map RGBf.r).sum, (m.map RGBf.g).sum, (m.map RGBf.b).sum⟩ := by
  constructor
  · induction l using List.reverseRecOn with
    | nil => ext <;> simp [XYZ.sum, XYZ.fromScalar]
    | append_singleton l v ih =>
      rw [(C61_sum_generic l v [] ⟨0, 0, 0⟩).2.1, ih]; simp
  · induction m using List.reverseRecOn with
    | nil => ext <;> simp [RGBf.sum, RGBf.fromScalar]
    | append_singleton m c ih =>
      rw [(C61_sum_generic [] ⟨0, 0, 0⟩ m c).2.2.2, ih]; simp

/-- C61 [R]: additive over concatenation. -/
theorem C61_sum_append_real (l l' : List (XYZ ℝ)) (m m' : List (RGBf ℝ)) :
    XYZ.sum (l ++ l') = XYZ.sum l + XYZ.sum l' ∧ RGBf.sum (m ++ m') = RGBf.sum m + RGBf.sum m' := by
  rw [(C61_sum_real (l ++ l') (m ++ m')).1, (C61_sum_real (l ++ l') (m ++ m')).2,
    (C61_sum_real l m).1, (C61_sum_real l m).2, (C61_sum_real l' m').1, (C61_sum_real l' m').2]
  simp only [List.map_append, List.sum_append]
  exact ⟨rfl, rfl⟩

/-- C61 [R]: the order does not matter. -/
theorem C61_sum_perm_real (l l' : List (XYZ ℝ)) (m m' : List (RGBf ℝ)) (h : l.Perm l')
    (h' : m.Perm m') : XYZ.sum l = XYZ.sum l' ∧ RGBf.sum m = RGBf.sum m' := by
  rw [(C61_sum_real l m).1, (C61_sum_real l m).2, (C61_sum_real l' m').1, (C61_sum_real l' m').2]
  rw [(h.map XYZ.x).sum_eq, (h.map XYZ.y).sum_eq, (h.map XYZ.z).sum_eq,
    (h'.map RGBf.r).sum_eq, (h'.map RGBf.g).sum_eq, (h'.map RGBf.b).sum_eq]
  exact ⟨rfl, rfl⟩

example : XYZ.sum [(⟨1, 2, 3⟩ : XYZ ℝ), ⟨4, 5, 6⟩] = ⟨5, 7, 9⟩ := by
  rw [(C61_sum_real _ []).1]; norm_num

/-! ## C63: normalised XYZ -/

/-- C63 [F]: `normalized()` has `y` exactly 1 and `normalized_y()` exactly 100, for every finite
non-zero `y`, in every format with at least 7 bits of precision. -/
theorem C63_normalized_ieee {f : Fmt} [Libm f] (hp : 7 ≤ f.p) (c : XYZ (FP f))
    (hf : c.y.isFinite = true) (h0 : c.y.val ≠ 0) :
    c.normalized.y = Flt.lit 1 ∧ c.normalizedY.y = Flt.lit 100 := by
  have h1 : c.y / c.y = FP.fin 1 (FP.isRep_one f) := FP.div_self hf h0
  constructor
  · show c.y / c.y = _
    rw [h1, FP.flt_lit1]
  · show c.y / c.y * FP.lit 100 = FP.lit 100
    have hN : 100 ≤ 2 ^ f.p := le_trans (by norm_num) (Nat.pow_le_pow_right (by norm_num) hp)
    have e : (FP.lit 100 : FP f) = FP.fin 100 (by simpa using FP.isRep_nat (f := f) 100 hN) := by
      simpa using FP.lit_nat (f := f) 100 hN (by norm_num)
    rw [h1, e, FP.mul_finite rfl rfl, FP.val_fin, FP.val_fin, one_mul]
    exact FP.ofQ_isRep _ (by norm_num) _

/-- C63 [R]: both keep the chromaticity. -/
theorem C63_normalized_chromaticity_real (c : XYZ ℝ) (hy : c.y ≠ 0) (_hs : c.x + c.y + c.z ≠ 0) :
    c.normalized.y = 1 ∧ c.normalizedY.y = 100 ∧
    (XYY.fromXyz c.normalized).x = c.x / (c.x + c.y + c.z) ∧
    (XYY.fromXyz c.normalized).y = c.y / (c.x + c.y + c.z) ∧
    (XYY.fromXyz c.normalizedY).x = c.x / (c.x + c.y + c.z) ∧
    (XYY.fromXyz c.normalizedY).y = c.y / (c.x + c.y + c.z) ∧
    (XYY.fromXyz c).x = c.x / (c.x + c.y + c.z) ∧
    (XYY.fromXyz c).y = c.y / (c.x + c.y + c.z) := by
  have e1 : c.normalized = ⟨c.x / c.y, c.y / c.y, c.z / c.y⟩ := rfl
  have e2 : c.normalizedY = ⟨c.x / c.y * 100, c.y / c.y * 100, c.z / c.y * 100⟩ := by
    show (⟨c.x / c.y * ((100:ℚ):ℝ), c.y / c.y * ((100:ℚ):ℝ), c.z / c.y * ((100:ℚ):ℝ)⟩ : XYZ ℝ) = _
    norm_num
  have e3 : ∀ v : XYZ ℝ, XYY.fromXyz v = ⟨v.x / 100 / (v.x / 100 + v.y / 100 + v.z / 100),
      v.y / 100 / (v.x / 100 + v.y / 100 + v.z / 100), v.y / 100⟩ := by
    intro v
    show (⟨v.x / ((100:ℚ):ℝ) / (v.x / ((100:ℚ):ℝ) + v.y / ((100:ℚ):ℝ) + v.z / ((100:ℚ):ℝ)),
      v.y / ((100:ℚ):ℝ) / (v.x / ((100:ℚ):ℝ) + v.y / ((100:ℚ):ℝ) + v.z / ((100:ℚ):ℝ)), v.y / ((100:ℚ):ℝ)⟩ : XYY ℝ) = _
    norm_num
  have key : ∀ v : XYZ ℝ, (XYY.fromXyz v).x = v.x / (v.x + v.y + v.z) ∧
      (XYY.fromXyz v).y = v.y / (v.x + v.y + v.z) := by
    intro v
    rw [e3]
    constructor
    · show v.x / 100 / (v.x / 100 + v.y / 100 + v.z / 100) = _
      rw [← add_div, ← add_div, div_div_div_cancel_right₀ (by norm_num)]
    · show v.y / 100 / (v.x / 100 + v.y / 100 + v.z / 100) = _
      rw [← add_div, ← add_div, div_div_div_cancel_right₀ (by norm_num)]
  refine ⟨by rw [e1]; exact div_self hy, by rw [e2]; simp [hy], ?_, ?_, ?_, ?_, (key c).1, (key c).2⟩
  · rw [(key _).1, e1]
    show c.x / c.y / (c.x / c.y + c.y / c.y + c.z / c.y) = _
    rw [← add_div, ← add_div, div_div_div_cancel_right₀ hy]
  · rw [(key _).2, e1]
    show c.y / c.y / (c.x / c.y + c.y / c.y + c.z / c.y) = _
    rw [← add_div, ← add_div, div_div_div_cancel_right₀ hy]
  · rw [(key _).1, e2]
    show c.x / c.y * 100 / (c.x / c.y * 100 + c.y / c.y * 100 + c.z / c.y * 100) = _
    rw [← add_mul, ← add_mul, ← add_div, ← add_div, mul_div_mul_right _ _ (by norm_num),
      div_div_div_cancel_right₀ hy]
  · rw [(key _).2, e2]
    show c.y / c.y * 100 / (c.x / c.y * 100 + c.y / c.y * 100 + c.z / c.y * 100) = _
    rw [← add_mul, ← add_mul, ← add_div, ← add_div, mul_div_mul_right _ _ (by norm_num),
      div_div_div_cancel_right₀ hy]

example : (⟨95, 100, 108⟩ : XYZ ℝ).y ≠ 0 ∧ (95:ℝ) + 100 + 108 ≠ 0 := by norm_num

/-! ## C64: lerp -/

/-- C64 [F]: the end points are hit exactly (compared with `==`, so that `-0` equals `+0`), for all
finite `a`, `b`. -/
theorem C64_lerp_ends_ieee {f : Fmt} [Libm f] (a b : FP f) (ha : a.isFinite = true)
    (hb : b.isFinite = true) :
    Flt.eqb (lerp a b (Flt.lit 0)) a = true ∧ Flt.eqb (lerp a b (Flt.lit 1)) b = true := by
  have h1 : (Flt.one : FP f) = FP.fin 1 (FP.isRep_one f) := FP.flt_lit1
  have key : ∀ x y : FP f, ∀ u v : FP f, x.isFinite = true → y.isFinite = true →
      u.isFinite = true → v.isFinite = true → u.val = 1 → v.val = 0 →
      (u * x).isFinite = true ∧ (u * x).val = x.val ∧ (v * y).isFinite = true ∧ (v * y).val = 0 ∧
      (u * x + v * y).isFinite = true ∧ (u * x + v * y).val = x.val ∧
      (v * y + u * x).isFinite = true ∧ (v * y + u * x).val = x.val := by
    intro x y u v hx hy hu hv eu ev
    have rx := FP.val_rep x
    obtain ⟨p1, p2⟩ := FP.mul_finite' hu hx (by rw [eu, one_mul, rx.1]; exact rx.2)
    obtain ⟨q1, q2⟩ := FP.mul_finite' hv hy (by rw [ev, zero_mul, roundQ_zero]; simp)
    rw [eu, one_mul, rx.1] at p2
    rw [ev, zero_mul, roundQ_zero] at q2
    obtain ⟨s1, s2⟩ := FP.add_finite p1 q1 (by rw [p2, q2, add_zero, rx.1]; exact rx.2)
    obtain ⟨t1, t2⟩ := FP.add_finite q1 p1 (by rw [p2, q2, zero_add, rx.1]; exact rx.2)
    rw [p2, q2, add_zero, rx.1] at s2
    rw [p2, q2, zero_add, rx.1] at t2
    exact ⟨p1, p2, q1, q2, s1, s2, t1, t2⟩
  constructor
  · unfold lerp
    rw [h1, FP.flt_lit0]
    obtain ⟨u1, u2⟩ := FP.sub_finite (f := f) (a := FP.fin 1 (FP.isRep_one f))
      (b := FP.fin 0 (FP.isRep_zero f)) rfl rfl (by
        simp only [FP.val_fin, sub_zero]; rw [(FP.isRep_one f).1]; exact (FP.isRep_one f).2)
    simp only [FP.val_fin, sub_zero] at u2
    rw [(FP.isRep_one f).1] at u2
    obtain ⟨-, -, -, -, r1, r2, -, -⟩ := key a b _ (FP.fin 0 (FP.isRep_zero f)) ha hb u1 rfl u2 rfl
    exact FP.eqb_of_val r1 ha r2
  · unfold lerp
    rw [h1, FP.flt_lit1]
    obtain ⟨u1, u2⟩ := FP.sub_finite (f := f) (a := FP.fin 1 (FP.isRep_one f))
      (b := FP.fin 1 (FP.isRep_one f)) rfl rfl (by
        simp only [FP.val_fin, sub_self]; rw [roundQ_zero]; simp)
    simp only [FP.val_fin, sub_self] at u2
    rw [roundQ_zero] at u2
    obtain ⟨-, -, -, -, -, -, r1, r2⟩ := key b a (FP.fin 1 (FP.isRep_one f)) _ hb ha rfl u1 rfl u2
    exact FP.eqb_of_val r1 hb r2

/-- C64 [R]: affine in `t`, monotone for `a <= b`, between the end points for `t` in `[0,1]`. -/
theorem C64_lerp_real (a b : ℝ) :
    (∀ t, lerp a b t = a + t * (b - a)) ∧
    (a ≤ b → ∀ s t, s ≤ t → lerp a b s ≤ lerp a b t) ∧
    (a ≤ b → ∀ t, 0 ≤ t → t ≤ 1 → a ≤ lerp a b t ∧ lerp a b t ≤ b) := by
  have h : ∀ t, lerp a b t = a + t * (b - a) := by
    intro t; simp only [lerp, Flt.one, flt_lit]; push_cast; ring
  refine ⟨h, fun hab s t hst => ?_, fun hab t h0 h1 => ?_⟩
  · rw [h, h]; nlinarith
  · rw [h]; constructor <;> nlinarith

end CS

import Mathlib.Data.List.TakeWhile
import Verif.Props.OffGrid
import Verif.Props.ToXyzF
import Verif.Props.Colour
import Verif.Lemmas.FPMono
import Verif.Lemmas.FPWhole

/-!
# Spectra outside the visible range (C110)
`align` and `interpolate` cannot bring a spectrum to a range it does not reach: they panic. So do
`to_xyz` and `spd_to_nit`, which call them. "Never returns" is: with no fuel is the result `ok`.
-/

namespace CS
variable {f : Fmt}

/-! ## Helpers -/

theorem maxF_finite {a b : FP f} (ha : a.isFinite = true) (hb : b.isFinite = true) :
    (FP.max a b).isFinite = true ∧ (FP.max a b).val = max a.val b.val := by
  unfold FP.max
  rw [FP.isNaN_of_finite ha, FP.isNaN_of_finite hb, FP.lt_finite ha hb]
  simp only [Bool.false_eq_true, if_false, decide_eq_true_eq]
  split_ifs with h
  · exact ⟨hb, (max_eq_right h.le).symm⟩
  · exact ⟨ha, (max_eq_left (not_lt.1 h)).symm⟩

theorem minF_finite {a b : FP f} (ha : a.isFinite = true) (hb : b.isFinite = true) :
    (FP.min a b).isFinite = true ∧ (FP.min a b).val = min a.val b.val := by
  unfold FP.min
  rw [FP.isNaN_of_finite ha, FP.isNaN_of_finite hb, FP.lt_finite hb ha]
  simp only [Bool.false_eq_true, if_false, decide_eq_true_eq]
  split_ifs with h
  · exact ⟨hb, (min_eq_right h.le).symm⟩
  · exact ⟨ha, (min_eq_left (not_lt.1 h)).symm⟩

theorem bind_ne_ok {α β : Type} {x : Res α} {k : α → Res β} {c : β} (h : ∀ a, x = .ok a → k a ≠ .ok c) :
    (x >>= k) ≠ .ok c := by
  cases x with
  | error e => intro h'; cases h'
  | ok a => exact h a rfl

variable [Libm f]

/-- a grid that ends a step or more before it starts is refused -/
theorem wavelengths_reversed (sh : SpdShape (FP f)) (i : FP f) (hi : sh.interval = .uniform i)
    (hif : i.isFinite = true) (hip : 0 < i.val) (hs : sh.start.isFinite = true) (he : sh.end.isFinite = true)
    (h : sh.end.val + i.val ≤ sh.start.val) : sh.wavelengths = .error .unwrap := by
  have hn : Flt.toUsize ((sh.end - sh.start) / i) = none := by
    obtain ⟨ni, nv⟩ := FP.neg_finite hif
    obtain ⟨σ, hd⟩ := sub_finite_eq he hs
    have hr : IsRep f (-i.val) := by
      rw [← nv]
      generalize hx : -i = x at ni
      cases x <;> simp [FP.isFinite, FP.val] at ni ⊢
      · exact FP.isRep_zero f
      · assumption
    have hle : roundQ f (sh.end.val - sh.start.val) ≤ -i.val := by
      have := roundQ_mono f (show sh.end.val - sh.start.val ≤ -i.val by linarith)
      rwa [hr.1] at this
    show FP.toUsize ((sh.end - sh.start) / i) = none
    by_cases hfin : |roundQ f (sh.end.val - sh.start.val)| < 2 ^ (f.emax + 1)
    · obtain ⟨df, dv⟩ := FP.ofQ_finite σ hfin
      rw [← hd] at df dv
      rw [FP.div_finite_eq df hif hip.ne']
      have hq : (sh.end - sh.start).val / i.val ≤ -1 := by
        rw [dv, div_le_iff₀ hip]; linarith
      have h1 : roundQ f ((sh.end - sh.start).val / i.val) ≤ -1 := by
        have := roundQ_mono f hq
        rwa [roundQ_neg, (FP.isRep_one f).1] at this
      unfold FP.ofQ
      split
      · rw [if_neg (by linarith)]
        show (if _ then _ else _) = _
        rw [if_neg (by push Not; intro h'; linarith)]
      · cases (decide ((sh.end - sh.start).val / i.val < 0)) <;> rfl
    · have hneg : sh.end.val - sh.start.val < 0 := by linarith
      have e : sh.end - sh.start = FP.ninf := by
        rw [hd]; unfold FP.ofQ; rw [dif_neg hfin]; simp [FP.infOf, hneg]
      rw [e]
      show FP.toUsize (FP.div FP.ninf i) = none
      have hsg : ∀ b, FP.toUsize (FP.infOf b : FP f) = none := by intro b; cases b <;> rfl
      cases i <;> simp [FP.isFinite] at hif <;> simp [FP.div, FP.isFinite, hsg]
  unfold SpdShape.wavelengths
  rw [(C37_panics sh).2 i hi hn]
  rfl

/-! ## C110 -/

/-- The two ranges are at least the step `i` apart. -/
def Apart (a b : SpdShape (FP f)) (i : ℚ) : Prop :=
  a.end.val + i ≤ b.start.val ∨ b.end.val + i ≤ a.start.val

/-- C110 [F]: `interpolate` and `align` never return when the spectrum and the requested range are at
least one requested step apart. -/
theorem C110_align (s : VSPD (FP f)) (sh : SpdShape (FP f)) (i : FP f) (hi : sh.interval = .uniform i)
    (hif : i.isFinite = true) (hip : 0 < i.val) (h1 : s.shape.start.isFinite = true)
    (h2 : s.shape.end.isFinite = true) (h3 : sh.start.isFinite = true) (h4 : sh.end.isFinite = true)
    (h : Apart s.shape sh i.val) :
    (∀ r, s.interpolate sh ≠ .ok r) ∧ ∀ fuel r, s.align fuel sh ≠ .ok r := by
  have hint : ∀ r, s.interpolate sh ≠ .ok r := by
    intro r
    obtain ⟨a1, a2⟩ := maxF_finite h3 h1
    obtain ⟨b1, b2⟩ := minF_finite h4 h2
    have hw := wavelengths_reversed (f := f)
      { sh with start := Flt.max sh.start s.start, «end» := Flt.min sh.end s.end } i hi hif hip a1 b1 (by
        show (FP.min sh.end s.shape.end).val + i.val ≤ (FP.max sh.start s.shape.start).val
        rw [a2, b2]
        rcases h with h | h
        · have := min_le_right sh.end.val s.shape.end.val
          have := le_max_left sh.start.val s.shape.start.val
          linarith
        · have := min_le_left sh.end.val s.shape.end.val
          have := le_max_right sh.start.val s.shape.start.val
          linarith)
    unfold VSPD.interpolate
    refine bind_ne_ok fun p _ => ?_
    dsimp only
    rw [hw]
    intro h'; cases h'
  refine ⟨hint, fun fuel r => ?_⟩
  unfold VSPD.align
  exact bind_ne_ok fun x hx => absurd hx (hint x)

/-- Not vacuous: a spectrum over 300..350 nm cannot be aligned to 360..780 nm in double precision. -/
example [Libm Fmt.b64] (l : List (Sample (FP Fmt.b64))) (fuel : ℕ) (r : VSPD (FP Fmt.b64)) :
    (⟨l, SpdShape.new (Flt.lit 300) (Flt.lit 350) (Flt.lit 1)⟩ : VSPD (FP Fmt.b64)).align fuel
      (SpdShape.new (Flt.lit 360) (Flt.lit 780) (Flt.lit 5)) ≠ .ok r := by
  have w : ∀ n : ℕ, 0 < n → n ≤ 2 ^ 24 → Whole (Flt.lit (n : ℚ) : FP Fmt.b64) n := fun n h0 h =>
    Whole.lit std_b64 n h0 h _ rfl
  have w0 := w 300 (by norm_num) (by norm_num)
  have w1 := w 350 (by norm_num) (by norm_num)
  have w2 := w 360 (by norm_num) (by norm_num)
  have w3 := w 780 (by norm_num) (by norm_num)
  have w4 := w 5 (by norm_num) (by norm_num)
  push_cast at w0 w1 w2 w3 w4
  refine (C110_align _ _ _ rfl w4.fin (by rw [w4.val]; norm_num) w0.fin w1.fin w2.fin w3.fin (Or.inl ?_)).2 fuel r
  show (Flt.lit 350 : FP Fmt.b64).val + _ ≤ (Flt.lit 360 : FP Fmt.b64).val
  rw [w1.val, w2.val, w4.val]; norm_num

/-- what `align` returns has the requested range and step -/
theorem align_shape {T : Type} [Add T] [Sub T] [Mul T] [Div T] [Neg T] [Flt T] (s r : VSPD T) (fuel : ℕ)
    (lo hi i : T) (h : s.align fuel (SpdShape.new lo hi i) = .ok r) : r.shape = SpdShape.new lo hi i := by
  unfold VSPD.align at h
  cases h1 : s.interpolate (SpdShape.new lo hi i) with
  | error e => rw [h1] at h; cases h
  | ok x =>
    rw [h1] at h
    have hx : x.shape.interval = .uniform i := by
      unfold VSPD.interpolate at h1
      cases h2 : Sprague.new s with
      | error e => rw [h2] at h1; cases h1
      | ok p =>
        rw [h2] at h1
        revert h1
        dsimp only [bind, Except.bind]
        split
        · intro h; cases h
        · split
          · intro h; cases h
          · intro h; cases h; rfl
    revert h
    show x.extrapolate fuel _ = .ok r → _
    unfold VSPD.extrapolate
    rw [hx]
    dsimp only [bind, Except.bind]
    split
    · intro h; cases h
    · split
      · intro h; cases h
      · intro h; cases h; rfl

/-- C110 [F]: `to_xyz` never returns for a spectrum that lies wholly outside 360..780 nm by 5 nm or more
(ultraviolet or infrared), whatever its interval, the illuminant and the colour-matching functions. -/
theorem C110_to_xyz (hf : Std f) (s il : VSPD (FP f)) (cmf : CMF (FP f)) (h1 : s.shape.start.isFinite = true)
    (h2 : s.shape.end.isFinite = true)
    (hr : ∀ p ∈ s.samples, FP.le s.shape.start p.nm = true ∧ FP.le p.nm s.shape.end = true)
    (h : s.shape.end.val ≤ 355 ∨ 785 ≤ s.shape.start.val) :
    ∀ fuel c, s.toXyz fuel il cmf ≠ .ok c := by
  intro fuel c
  have w360 : Whole (Flt.lit 360.0 : FP f) 360 := Whole.lit hf 360 (by norm_num) (by norm_num) _ (by norm_num)
  have w780 : Whole (Flt.lit 780.0 : FP f) 780 := Whole.lit hf 780 (by norm_num) (by norm_num) _ (by norm_num)
  have w780' : Whole (Flt.lit 780 : FP f) 780 := Whole.lit hf 780 (by norm_num) (by norm_num) _ (by norm_num)
  have w1 : Whole (Flt.lit 1.0 : FP f) 1 := Whole.lit hf 1 (by norm_num) (by norm_num) _ (by norm_num)
  have w5 : Whole (Flt.lit 5.0 : FP f) 5 := Whole.lit hf 5 (by norm_num) (by norm_num) _ (by norm_num)
  have v360 := w360.val
  have v780 := w780.val
  have v780' := w780'.val
  have v1 := w1.val
  have v5 := w5.val
  push_cast at v360 v780 v780' v1 v5
  have key : ∀ (i : FP f), i.isFinite = true → 0 < i.val → i.val ≤ 5 → ∀ (t : VSPD (FP f)), t = s →
      ∀ r, t.align fuel ⟨Flt.lit 360.0, Flt.lit 780, .uniform i⟩ ≠ .ok r := by
    intro i hif hip hi5 t ht r
    subst ht
    refine (C110_align t ⟨Flt.lit 360.0, Flt.lit 780, .uniform i⟩ i rfl hif hip h1 h2 w360.fin w780'.fin
      ?_).2 fuel r
    · rcases h with h | h
      · left; show _ ≤ (Flt.lit 360.0 : FP f).val; rw [v360]; linarith
      · right; show (Flt.lit 780 : FP f).val + _ ≤ _; rw [v780']; linarith
  have integ : ∀ (i : FP f), i.isFinite = true → 0 < i.val → i.val ≤ 5 → ∀ il' cm,
      spdToXyzIntegration fuel s il' cm ⟨Flt.lit 360.0, Flt.lit 780, .uniform i⟩ ≠ .ok c := by
    intro i hif hip hi5 il' cm
    unfold spdToXyzIntegration
    refine bind_ne_ok fun _ _ => bind_ne_ok fun _ _ => bind_ne_ok fun _ _ => bind_ne_ok fun _ _ => ?_
    exact bind_ne_ok fun sp hsp => absurd hsp (key i hif hip hi5 s rfl sp)
  unfold VSPD.toXyz
  dsimp only
  refine bind_ne_ok fun il' hil => bind_ne_ok fun cm hcm => ?_
  have hcx : cm.xBar.shape = SpdShape.new (Flt.lit 360.0) (Flt.lit 780.0) (Flt.lit 1.0) := by
    unfold CMF.align at hcm
    cases hx : cmf.xBar.align fuel (SpdShape.new (Flt.lit 360.0) (Flt.lit 780.0) (Flt.lit 1.0)) with
    | error e => rw [hx] at hcm; cases hcm
    | ok x =>
      rw [hx] at hcm
      revert hcm
      dsimp only [bind, Except.bind]
      split
      · intro h; cases h
      · split
        · intro h; cases h
        · intro h; cases h
          exact align_shape _ _ _ _ _ _ hx
  split
  · refine bind_ne_ok fun sp hsp => ?_
    rw [align_shape _ _ _ _ _ _ hsp]
    unfold spdToXyzIntegration
    refine bind_ne_ok fun cx hcx' => absurd hcx' ?_
    refine (C110_align cm.xBar (SpdShape.new s.shape.start s.shape.end (Flt.lit 1.0)) _ rfl w1.fin
      (by rw [v1]; norm_num) ?_ ?_ h1 h2 ?_).2 fuel cx
    · rw [hcx]; exact w360.fin
    · rw [hcx]; exact w780.fin
    · rw [hcx]
      rcases h with h | h
      · right; show s.shape.end.val + (Flt.lit 1.0 : FP f).val ≤ (Flt.lit 360.0 : FP f).val
        rw [v360, v1]; linarith
      · left; show (Flt.lit 780.0 : FP f).val + (Flt.lit 1.0 : FP f).val ≤ s.shape.start.val
        rw [v780, v1]; linarith
  · refine bind_ne_ok fun n hn => ?_
    have i1 := integ (Flt.lit 1.0) w1.fin (by rw [v1]; norm_num) (by rw [v1]; norm_num) il' cm
    split
    · exact i1
    · exact integ (Flt.lit 5.0) w5.fin (by rw [v5]; norm_num) (by rw [v5]) il' cm
    · unfold spdToXyzWeights
      split
      · intro h'; cases h'
      · have tr : ∀ sp, s.trim cm.shape ≠ .ok sp := by
          intro sp hsp
          have hsh : cm.shape = SpdShape.new (Flt.lit 360.0) (Flt.lit 780.0) (Flt.lit 1.0) := hcx
          rw [hsh] at hsp
          have hnil : ((s.samples.dropWhile fun p => Flt.lt p.nm (Flt.lit 360.0 : FP f)).takeWhile
              fun p => Flt.le p.nm (Flt.lit 780.0 : FP f)) = [] := by
            rcases h with h | h
            · have : (s.samples.dropWhile fun p => Flt.lt p.nm (Flt.lit 360.0 : FP f)) = [] := by
                rw [List.dropWhile_eq_nil_iff]
                intro p hp
                show FP.lt p.nm (Flt.lit 360.0) = true
                obtain ⟨x, y, hx, hy, hxy⟩ := (FP.le_iff _ _).1 (hr p hp).2
                have hlt : FP.lt s.shape.end (Flt.lit 360.0 : FP f) = true := by
                  rw [FP.lt_finite h2 w360.fin]; simp only [decide_eq_true_eq]; rw [v360]; linarith
                obtain ⟨y', z, hy', hz, hyz⟩ := (FP.lt_iff _ _).1 hlt
                rw [hy] at hy'; obtain rfl := Option.some.inj hy'
                exact (FP.lt_iff _ _).2 ⟨x, z, hx, hz, lt_of_le_of_lt hxy hyz⟩
              rw [this]; rfl
            · have hall : ∀ p ∈ s.samples, FP.le p.nm (Flt.lit 780.0 : FP f) = false := by
                intro p hp
                obtain ⟨x, y, hx, hy, hxy⟩ := (FP.le_iff _ _).1 (hr p hp).1
                by_contra hc
                have hc := Bool.eq_true_of_not_eq_false hc
                have := FP.val_le h1 w780.fin (FP.le_trans' (hr p hp).1 hc)
                rw [v780] at this; linarith
              cases hl : (s.samples.dropWhile fun p => Flt.lt p.nm (Flt.lit 360.0 : FP f)) with
              | nil => rfl
              | cons p l =>
                have hp : p ∈ s.samples := by
                  have := List.dropWhile_sublist (l := s.samples) fun p => Flt.lt p.nm (Flt.lit 360.0 : FP f)
                  rw [hl] at this
                  exact this.subset (List.mem_cons_self)
                rw [List.takeWhile_cons_of_neg]
                show ¬ FP.le p.nm (Flt.lit 780.0) = true
                rw [hall p hp]; decide
          unfold VSPD.trim at hsp
          dsimp only [SpdShape.new] at hsp
          rw [hnil] at hsp
          cases hsp
        dsimp only
        split <;> exact bind_ne_ok fun _ _ => bind_ne_ok fun sp hsp => absurd hsp (tr sp)
    · exact i1

/-- C110 [F]: `spd_to_nit` never returns for a spectrum with a uniform interval whose range lies at least
one interval away from that of the luminosity function it is given. -/
theorem C110_nit (s : VSPD (FP f)) (cmf : CMF (FP f)) (i : FP f) (hi : s.shape.interval = .uniform i)
    (hif : i.isFinite = true) (hip : 0 < i.val) (h1 : s.shape.start.isFinite = true)
    (h2 : s.shape.end.isFinite = true) (h3 : cmf.yBar.shape.start.isFinite = true)
    (h4 : cmf.yBar.shape.end.isFinite = true) (h : Apart s.shape cmf.yBar.shape i.val) :
    ∀ fuel c, spdToNit fuel s cmf ≠ .ok c := by
  intro fuel c
  unfold spdToNit
  exact bind_ne_ok fun x hx => absurd hx
    ((C110_align cmf.yBar s.shape i hi hif hip h3 h4 h1 h2 h.symm).2 fuel x)

/-- Not vacuous: a spectrum over 300..350 nm every 5 nm has no luminance against any function over 360..830 nm. -/
example [Libm Fmt.b64] (l l' : List (Sample (FP Fmt.b64))) (x z : VSPD (FP Fmt.b64)) (fuel : ℕ) (c : FP Fmt.b64) :
    spdToNit fuel ⟨l, SpdShape.new (Flt.lit 300) (Flt.lit 350) (Flt.lit 5)⟩
      ⟨x, ⟨l', SpdShape.new (Flt.lit 360) (Flt.lit 830) (Flt.lit 1)⟩, z⟩ ≠ .ok c := by
  have w : ∀ n : ℕ, 0 < n → n ≤ 2 ^ 24 → Whole (Flt.lit (n : ℚ) : FP Fmt.b64) n := fun n h0 h =>
    Whole.lit std_b64 n h0 h _ rfl
  have w0 := w 300 (by norm_num) (by norm_num)
  have w1 := w 350 (by norm_num) (by norm_num)
  have w2 := w 360 (by norm_num) (by norm_num)
  have w3 := w 830 (by norm_num) (by norm_num)
  have w4 := w 5 (by norm_num) (by norm_num)
  push_cast at w0 w1 w2 w3 w4
  refine C110_nit _ _ _ rfl w4.fin (by rw [w4.val]; norm_num) w0.fin w1.fin w2.fin w3.fin (Or.inl ?_) fuel c
  show (Flt.lit 350 : FP Fmt.b64).val + _ ≤ (Flt.lit 360 : FP Fmt.b64).val
  rw [w1.val, w2.val, w4.val]; norm_num

/-- Not vacuous: an infrared spectrum at 800, 801 and 802 nm has no XYZ in double precision. -/
example [Libm Fmt.b64] (il : VSPD (FP Fmt.b64)) (cmf : CMF (FP Fmt.b64)) (fuel : ℕ) (c : XYZ (FP Fmt.b64)) :
    (⟨[⟨Flt.lit 800, Flt.lit 1⟩, ⟨Flt.lit 801, Flt.lit 2⟩, ⟨Flt.lit 802, Flt.lit 3⟩],
      SpdShape.new (Flt.lit 800) (Flt.lit 802) (Flt.lit 1)⟩ : VSPD (FP Fmt.b64)).toXyz fuel il cmf ≠ .ok c := by
  have w : ∀ n : ℕ, 0 < n → n ≤ 2 ^ 24 → Whole (Flt.lit (n : ℚ) : (FP Fmt.b64)) n := fun n h0 h =>
    Whole.lit std_b64 n h0 h _ rfl
  have w0 := w 800 (by norm_num) (by norm_num)
  have w1 := w 801 (by norm_num) (by norm_num)
  have w2 := w 802 (by norm_num) (by norm_num)
  push_cast at w0 w1 w2
  refine C110_to_xyz std_b64 _ il cmf w0.fin w2.fin ?_ (Or.inr ?_) fuel c
  · intro p hp
    simp only [List.mem_cons, List.not_mem_nil, or_false] at hp
    rcases hp with rfl | rfl | rfl <;> constructor
    · show FP.le (Flt.lit 800 : (FP Fmt.b64)) (Flt.lit 800) = true
      rw [w0.le w0]; decide
    · show FP.le (Flt.lit 800 : (FP Fmt.b64)) (Flt.lit 802) = true
      rw [w0.le w2]; decide
    · show FP.le (Flt.lit 800 : (FP Fmt.b64)) (Flt.lit 801) = true
      rw [w0.le w1]; decide
    · show FP.le (Flt.lit 801 : (FP Fmt.b64)) (Flt.lit 802) = true
      rw [w1.le w2]; decide
    · show FP.le (Flt.lit 800 : (FP Fmt.b64)) (Flt.lit 802) = true
      rw [w0.le w2]; decide
    · show FP.le (Flt.lit 802 : (FP Fmt.b64)) (Flt.lit 802) = true
      rw [w2.le w2]; decide
  · show (785 : ℚ) ≤ (Flt.lit 800 : (FP Fmt.b64)).val
    rw [w0.val]; norm_num

/-- C110 [R]: conversely `to_xyz` returns for every spectrum that meets 360..780 nm, for every interval
but those whose whole part is 10 (and, with a varying interval, if it is at least 1 nm long). -/
theorem C110_returns (s il : VSPD ℝ) (cmf : CMF ℝ) (ht : Tables il cmf) (hs : Meets s 360 780)
    (hi : (∃ i, s.shape.interval = .uniform i ∧ -1 < i ∧ i < 2 ^ 64 ∧ ⌊i⌋₊ ≠ 10) ∨
      (s.shape.interval = .varying ∧ s.shape.start + 1 ≤ s.shape.end ∧
        s.shape.end - s.shape.start < 2 ^ 64)) :
    ∃ N c, ∀ fuel, N ≤ fuel → s.toXyz fuel il cmf = .ok c := by
  rcases hi with ⟨i, hi, h1, h2, h10⟩ | ⟨hi, h1, h2⟩
  · by_cases h5 : ⌊i⌋₊ = 5
    · obtain ⟨N, h⟩ := C69_five_nm_off_grid s il cmf ht hs i hi h5
      exact ⟨N, _, h⟩
    · obtain ⟨N, h⟩ := C69_one_nm_off_grid s il cmf ht hs i hi h1 h2 h5 h10
      exact ⟨N, _, h⟩
  · obtain ⟨N, h⟩ := C69_varying_off_grid s il cmf ht hi hs h1 h2
    exact ⟨N, _, h⟩

/-- Not vacuous: 400.5..700.5 nm every 20 nm. -/
example : ∃ N c, ∀ fuel, N ≤ fuel → (onGrid 400.5 700.5 20 16 fun _ => 0.5).toXyz fuel (flatTable 5)
    ⟨flatTable 2, flatTable 1, flatTable 3⟩ = .ok c :=
  C110_returns _ _ _ flat_tables
    (onGrid_meets _ _ _ _ _ (by norm_num) (by norm_num) (by norm_num) _ _ (by norm_num) (by norm_num))
    (Or.inl ⟨20, rfl, by norm_num, by norm_num, by norm_num⟩)

end CS

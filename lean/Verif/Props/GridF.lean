import Verif.Lemmas.FPGrid

/-!
# Whole-nanometre grids in floating point (C90)

A float spectrum `s` and an exact spectrum `S` run side by side: `Spec.Tracks e s S` says they have exactly
the same wavelengths and shape, and values that differ by at most `e`.
-/

namespace CS

section
variable {f : Fmt} [Libm f]

/-- C90 [F]: in f32 and f64, the grid of a shape with whole start, end and interval (up to 2^20) is
enumerated exactly: `(end - start) / interval + 1` points, the `k`-th at exactly `start + k * interval`,
none lost and none added by rounding. -/
theorem C90_grid (hf : Std f) (sh : SpdShape (FP f)) (lo hi i : ℕ) (hi0 : 0 < i) (hle : lo ≤ hi)
    (hb : hi ≤ 2 ^ 20) (hib : i ≤ 2 ^ 20) (hsh : Spec.SameShape sh (SpdShape.new (lo : ℝ) hi i)) :
    ∃ ws, sh.wavelengths = .ok ws ∧ ws.length = (hi - lo) / i + 1 ∧
      ∀ (k : ℕ) (w : FP f), ws[k]? = some w → w.isFinite = true ∧ w.val = lo + k * i := by
  obtain ⟨i', e', hi'⟩ := hsh.interval.inv
  obtain ⟨h1, h2⟩ := wavelengths_whole_fp hf sh i' lo hi i hi0 hle hb hib hsh.start.whole hsh.stop.whole e'
    hi'.whole
  refine ⟨_, h1, by simp, fun k w hw => ?_⟩
  rw [List.getElem?_map, Option.map_eq_some_iff] at hw
  obtain ⟨j, hj, rfl⟩ := hw
  obtain ⟨hj1, hj2⟩ := List.getElem?_eq_some_iff.1 hj
  simp only [List.getElem_range] at hj2
  subst hj2
  have := h2 k (by simp at hj1; omega)
  exact ⟨this.fin, by rw [this.val]; push_cast; ring⟩

/-- the float grid and the exact grid -/
theorem grids_sim (hf : Std f) (sh : SpdShape (FP f)) (lo hi i : ℕ) (hi0 : 0 < i) (hle : lo ≤ hi)
    (hb : hi ≤ 2 ^ 20) (hib : i ≤ 2 ^ 20) (hsh : Spec.SameShape sh (SpdShape.new (lo : ℝ) hi i)) :
    ∃ ws WS, sh.wavelengths = .ok ws ∧ (SpdShape.new (lo : ℝ) hi i).wavelengths = .ok WS ∧
      List.Forall₂ (fun w W => Spec.SameNum w W ∧ (lo : ℝ) ≤ W ∧ W ≤ hi) ws WS := by
  obtain ⟨i', e', hi'⟩ := hsh.interval.inv
  obtain ⟨h1, h2⟩ := wavelengths_whole_fp hf sh i' lo hi i hi0 hle hb hib hsh.start.whole hsh.stop.whole e'
    hi'.whole
  refine ⟨_, _, h1, wavelengths_whole lo hi i hi0 hle hb, ?_⟩
  rw [List.forall₂_map_left_iff, List.forall₂_map_right_iff, List.forall₂_same]
  intro k hk
  have hk' : k ≤ (hi - lo) / i := by simp at hk; omega
  have h3 : k * i ≤ hi - lo := le_trans (Nat.mul_le_mul_right _ hk') (Nat.div_mul_le_self _ _)
  refine ⟨(h2 k hk').sameNum, ?_, ?_⟩
  · exact_mod_cast Nat.le_add_right _ _
  · exact_mod_cast (by omega : lo + k * i ≤ hi)

theorem mapM_sim {α α' β β' : Type} {Q : β → β' → Prop} {g : α → Res β} {G : α' → Res β'} {ws : List α}
    {WS : List α'} (h : List.Forall₂ (fun w W => ∃ x X, g w = .ok x ∧ G W = .ok X ∧ Q x X) ws WS) :
    ∃ l L, ws.mapM g = .ok l ∧ WS.mapM G = .ok L ∧ List.Forall₂ Q l L := by
  induction h with
  | nil => exact ⟨[], [], rfl, rfl, .nil⟩
  | cons h _ ih =>
    obtain ⟨x, X, h1, h2, h3⟩ := h
    obtain ⟨l, L, i1, i2, i3⟩ := ih
    exact ⟨x :: l, X :: L, by rw [List.mapM_cons, h1, i1]; rfl, by rw [List.mapM_cons, h2, i2]; rfl,
      .cons h3 i3⟩

theorem forall₂_get {α β : Type} {R : α → β → Prop} {l : List α} {L : List β} (h : List.Forall₂ R l L) (k : ℕ)
    (hk : k < l.length) (hk' : k < L.length) : R l[k] L[k] := by
  have := List.forall₂_iff_get.1 h
  exact this.2 k hk hk'

theorem Spec.Tracks.len {e : ℝ} {s : VSPD (FP f)} {S : VSPD ℝ} (h : Spec.Tracks e s S) :
    s.samples.length = S.samples.length := h.samples.length_eq

/-- one interpolated value -/
theorem interp_sim (hf : Std f) (hp : PowiAccurate f) {s : VSPD (FP f)} {S : VSPD ℝ} {e : ℝ}
    (ht : Spec.Tracks e s S) (hw : Spec.WholeGrid S) {V : ℝ} (hV : 1 / 2 ^ 60 ≤ V) (hV' : V ≤ 2 ^ 60)
    (hv : ∀ p ∈ S.samples, |p.v| + e ≤ V) {x : FP f} {X : ℝ} (hx : Spec.SameNum x X)
    (h1 : S.shape.start ≤ X) (h2 : X ≤ S.shape.end) :
    ∃ v w, spragueEval s x = .ok v ∧ v.isFinite = true ∧ spragueEval S X = .ok w ∧
      |(v.val : ℝ) - w| ≤ 8940 * f.u * V + 89 / 64 * e := by
  have hl := ht.len
  have six := hw.six
  have l0 : 0 < s.samples.length := by omega
  have l1 : 1 < s.samples.length := by omega
  have lz : s.samples.length - 1 < s.samples.length := by omega
  have r := fun k hk => forall₂_get ht.samples k hk (by omega)
  have hasc : ∀ i j (hi : i < S.samples.length) (hj : j < S.samples.length), i < j →
      S.samples[i].nm < S.samples[j].nm := by
    intro i j hi hj hij
    have := List.pairwise_iff_getElem.1 hw.asc i j (by simpa [VSPD.wavelengths] using hi)
      (by simpa [VSPD.wavelengths] using hj) hij
    simpa [VSPD.wavelengths] using this
  have hst : S.samples[0].nm = S.shape.start := by
    have := hw.start
    rw [List.head?_eq_getElem?, List.getElem?_eq_getElem (by omega)] at this
    simpa using this
  have hen : (S.samples[s.samples.length - 1]'(by omega)).nm = S.shape.end := by
    have := hw.stop
    rw [List.getLast?_eq_getElem?, List.getElem?_eq_getElem (by omega)] at this
    simpa [hl] using this
  set S' : VSPD ℝ := ⟨s.samples.map fun p => ⟨(p.nm.val : ℝ), (p.v.val : ℝ)⟩, S.shape⟩ with hS'
  have hw' : S.wavelengths = S'.wavelengths := by
    unfold VSPD.wavelengths
    rw [hS', List.map_map]
    apply List.ext_getElem
    · simp [hl]
    · intro k hk hk'
      simp only [List.getElem_map, Function.comp]
      exact (r k (by simpa using hk')).nm.symm
  have good : Spec.GoodGrid s s.samples[0] s.samples[1] s.samples[s.samples.length - 1] := by
    refine ⟨List.getElem?_eq_getElem l0, List.getElem?_eq_getElem l1, ?_, ?_, ?_, ?_⟩
    · rw [List.getLast?_eq_getElem?]; exact List.getElem?_eq_getElem lz
    · intro p hp
      obtain ⟨k, hk, rfl⟩ := List.mem_iff_getElem.1 hp
      refine ⟨(r k hk).nm_fin, ?_⟩
      obtain ⟨n, hn, e1⟩ := hw.whole _ (List.getElem_mem (by omega : k < S.samples.length))
      have : (s.samples[k].nm.val : ℝ) = n := by rw [(r k hk).nm, e1]
      have : s.samples[k].nm.val = n := by exact_mod_cast this
      rw [this, abs_of_nonneg (by positivity)]
      exact_mod_cast hn
    · rw [List.pairwise_iff_getElem]
      intro i j hi hj hij
      have := hasc i j (by omega) (by omega) hij
      rw [← (r i hi).nm, ← (r j hj).nm] at this
      exact_mod_cast this
    · obtain ⟨n0, -, e0⟩ := hw.whole _ (List.getElem_mem (by omega : 0 < S.samples.length))
      obtain ⟨n1, -, e1⟩ := hw.whole _ (List.getElem_mem (by omega : 1 < S.samples.length))
      obtain ⟨nz, hz, ez⟩ := hw.whole _ (List.getElem_mem (by omega : s.samples.length - 1 < S.samples.length))
      have v0 : s.samples[0].nm.val = n0 := by
        have : (s.samples[0].nm.val : ℝ) = n0 := by rw [(r 0 l0).nm, e0]
        exact_mod_cast this
      have v1 : s.samples[1].nm.val = n1 := by
        have : (s.samples[1].nm.val : ℝ) = n1 := by rw [(r 1 l1).nm, e1]
        exact_mod_cast this
      have vz : s.samples[s.samples.length - 1].nm.val = nz := by
        have : (s.samples[s.samples.length - 1].nm.val : ℝ) = nz := by rw [(r _ lz).nm, ez]
        exact_mod_cast this
      have h01 : n0 + 1 ≤ n1 := by
        have := hasc 0 1 (by omega) (by omega) (by omega)
        rw [e0, e1] at this
        exact_mod_cast this
      have h01' : (n0 : ℚ) + 1 ≤ n1 := by exact_mod_cast h01
      have hz' : (nz : ℚ) ≤ 2 ^ 20 := by exact_mod_cast hz
      rw [v0, v1, vz, abs_of_nonneg (by positivity)]
      have hu := hf.hu
      have : 4 * f.u * (nz : ℚ) ≤ 4 * (1 / 2 ^ 24) * 2 ^ 20 := by
        have := f.u_pos.le
        gcongr
      norm_num at this
      linarith
  have hvals : ∀ p ∈ s.samples, p.v.isFinite = true ∧ |(p.v.val : ℝ)| ≤ V := by
    intro p hp
    obtain ⟨k, hk, rfl⟩ := List.mem_iff_getElem.1 hp
    refine ⟨(r k hk).v_fin, ?_⟩
    have h3 := hv _ (List.getElem_mem (by omega : k < S.samples.length))
    have h4 := (r k hk).v
    have := abs_sub_abs_le_abs_sub (s.samples[k].v.val : ℝ) (S.samples[k]'(by omega)).v
    linarith
  have hx1 : s.samples[0].nm.val ≤ x.val := by
    have : (s.samples[0].nm.val : ℝ) ≤ x.val := by rw [(r 0 l0).nm, hst, hx.2]; exact h1
    exact_mod_cast this
  have hx2 : x.val ≤ s.samples[s.samples.length - 1].nm.val := by
    have : (x.val : ℝ) ≤ s.samples[s.samples.length - 1].nm.val := by rw [(r _ lz).nm, hen, hx.2]; exact h2
    exact_mod_cast this
  obtain ⟨v, w, a1, a2, a3, a4⟩ := C87_sprague hf hp s _ _ _ good V hV hV' hvals S' rfl x hx.1 hx1 hx2
  rw [hx.2] at a3
  obtain ⟨w', w'', b1, b2, b3⟩ := C88_stable S' S ⟨(s.samples[0].nm.val : ℝ), (s.samples[0].v.val : ℝ)⟩
    ⟨(s.samples[s.samples.length - 1].nm.val : ℝ), (s.samples[s.samples.length - 1].v.val : ℝ)⟩
    (by simp [hS']; omega) (by rw [List.head?_eq_getElem?]; simp [hS', l0])
    (by rw [List.getLast?_eq_getElem?]; simp [hS', lz]) (by rw [← hw']; exact hw.asc) hw' e
    (by
      intro j p q hp hq
      obtain ⟨hj, rfl⟩ := List.getElem?_eq_some_iff.1 hp
      obtain ⟨hj', rfl⟩ := List.getElem?_eq_some_iff.1 hq
      simp only [hS', List.getElem_map]
      exact (r j (by omega)).v) X (by dsimp only; rw [(r 0 l0).nm, hst]; exact h1)
    (by dsimp only; rw [(r _ lz).nm, hen]; exact h2)
  rw [a3] at b1
  cases b1
  exact ⟨v, w'', a1, a2, b2, (abs_sub_le _ w _).trans (add_le_add a4 b3)⟩

theorem WholeGrid.bounds {S : VSPD ℝ} (hw : Spec.WholeGrid S) :
    ∃ a z : ℕ, a ≤ 2 ^ 20 ∧ z ≤ 2 ^ 20 ∧ S.shape.start = a ∧ S.shape.end = z := by
  have six := hw.six
  obtain ⟨a, ha, e0⟩ := hw.whole _ (List.getElem_mem (by omega : 0 < S.samples.length))
  obtain ⟨z, hz, ez⟩ := hw.whole _ (List.getElem_mem (by omega : S.samples.length - 1 < S.samples.length))
  have h1 := hw.start
  have h2 := hw.stop
  rw [List.head?_eq_getElem?, List.getElem?_eq_getElem (by omega)] at h1
  rw [List.getLast?_eq_getElem?, List.getElem?_eq_getElem (by omega)] at h2
  simp only [Option.map_some, Option.some.injEq] at h1 h2
  exact ⟨a, z, ha, hz, by rw [← h1, e0], by rw [← h2, ez]⟩

/-- C90 [F]: in f32 and f64, `interpolate` of a spectrum at whole wavelengths onto a whole-nanometre grid
that meets its range does not panic; the wavelengths and the shape of the result are exactly those of the
exact result, and the values differ by the rounding error of one evaluation plus 89/64 of the error of the
input. -/
theorem C90_interpolate (hf : Std f) (hp : PowiAccurate f) (s : VSPD (FP f)) (S : VSPD ℝ) (e : ℝ)
    (ht : Spec.Tracks e s S) (hw : Spec.WholeGrid S) (V : ℝ) (hV : 1 / 2 ^ 60 ≤ V) (hV' : V ≤ 2 ^ 60)
    (hv : ∀ p ∈ S.samples, |p.v| + e ≤ V) (sh : SpdShape (FP f)) (lo hi i : ℕ) (hi0 : 0 < i)
    (hb : hi ≤ 2 ^ 20) (hib : i ≤ 2 ^ 20) (hsh : Spec.SameShape sh (SpdShape.new (lo : ℝ) hi i))
    (hov : max (lo : ℝ) S.shape.start ≤ min (hi : ℝ) S.shape.end) :
    ∃ r R, s.interpolate sh = .ok r ∧ S.interpolate (SpdShape.new (lo : ℝ) hi i) = .ok R ∧
      Spec.Tracks (8940 * f.u * V + 89 / 64 * e) r R := by
  obtain ⟨a, z, ha, hz, ea, ez⟩ := WholeGrid.bounds hw
  have six := hw.six
  have hl := ht.len
  rw [interpolate_eq s sh (by omega), interpolate_eq S _ (by omega)]
  have c1 : (Flt.max (SpdShape.new (lo : ℝ) hi i).start S.shape.start) = ((max lo a : ℕ) : ℝ) := by
    rw [flt_max, ea, Nat.cast_max]; rfl
  have c2 : (Flt.min (SpdShape.new (lo : ℝ) hi i).end S.shape.end) = ((min hi z : ℕ) : ℝ) := by
    rw [flt_min, ez, Nat.cast_min]; rfl
  have hov' : max lo a ≤ min hi z := by
    rw [ea, ez, ← Nat.cast_max, ← Nat.cast_min] at hov
    exact_mod_cast hov
  have w1 : Whole (Flt.max sh.start s.shape.start) (max lo a) :=
    hsh.start.whole.max (Spec.SameNum.whole (ea ▸ ht.shape.start))
  have w2 : Whole (Flt.min sh.end s.shape.end) (min hi z) :=
    hsh.stop.whole.min (Spec.SameNum.whole (ez ▸ ht.shape.stop))
  rw [c1, c2]
  have hsh' : Spec.SameShape (⟨Flt.max sh.start s.shape.start, Flt.min sh.end s.shape.end, sh.interval⟩ :
      SpdShape (FP f)) (SpdShape.new ((max lo a : ℕ) : ℝ) ((min hi z : ℕ) : ℝ) i) :=
    ⟨w1.sameNum, w2.sameNum, hsh.interval⟩
  obtain ⟨ws, WS, g1, g2, g3⟩ := grids_sim hf _ (max lo a) (min hi z) i hi0 hov' (by omega) hib hsh'
  have key : List.Forall₂ (fun w W => ∃ x X, evalSample s w = .ok x ∧ evalSample S W = .ok X ∧
      Spec.NearSample (8940 * f.u * V + 89 / 64 * e) x X) ws WS := by
    refine g3.imp ?_
    intro w W ⟨h1, h2, h3⟩
    obtain ⟨v, w', a1, a2, a3, a4⟩ := interp_sim hf hp ht hw hV hV' hv h1
      (by rw [ea]; refine le_trans ?_ h2; exact_mod_cast le_max_right lo a)
      (by rw [ez]; refine le_trans h3 ?_; exact_mod_cast min_le_right hi z)
    refine ⟨⟨w, v⟩, ⟨W, w'⟩, ?_, ?_, h1.1, h1.2, a2, a4⟩
    · unfold evalSample; rw [a1]
    · unfold evalSample; rw [a3]
  obtain ⟨l, L, m1, m2, m3⟩ := mapM_sim key
  refine ⟨⟨l, _⟩, ⟨L, _⟩, ?_, ?_, m3, hsh'⟩
  · rw [g1]; simp only [bind, Except.bind, m1]
  · have : (⟨((max lo a : ℕ) : ℝ), ((min hi z : ℕ) : ℝ), (SpdShape.new (lo : ℝ) hi i).interval⟩ : SpdShape ℝ) =
      SpdShape.new ((max lo a : ℕ) : ℝ) ((min hi z : ℕ) : ℝ) i := rfl
    rw [this, g2]; simp only [bind, Except.bind, m2]; rfl

/-- the push loops, side by side -/
theorem pushLoop_sim (hf : Std f) {cond : FP f → Bool} {Cond : ℝ → Bool} {eval : FP f → Res (FP f)}
    {Eval : ℝ → Res ℝ} {e : ℝ} {i' : FP f} {i : ℕ} (hi : Whole i' i) (hib : i ≤ 2 ^ 20)
    (hc : ∀ (x : FP f) (n : ℕ), Whole x n → cond x = Cond n)
    (hcb : ∀ n : ℕ, Cond n = true → n ≤ 2 ^ 21)
    (he : ∀ (x : FP f) (n : ℕ) (W : ℝ), Whole x n → Eval n = .ok W →
      ∃ v, eval x = .ok v ∧ v.isFinite = true ∧ |(v.val : ℝ) - W| ≤ e) :
    ∀ (fuel : ℕ) (x : FP f) (n : ℕ) (L : List (Sample ℝ)), Whole x n →
      pushLoop Cond Eval (i : ℝ) fuel n = .ok L →
      ∃ l, pushLoop cond eval i' fuel x = .ok l ∧ List.Forall₂ (Spec.NearSample e) l L := by
  intro fuel
  induction fuel with
  | zero =>
    intro x n L hx h
    unfold pushLoop at h ⊢
    rw [hc x n hx]
    split_ifs at h ⊢
    cases h
    exact ⟨[], rfl, .nil⟩
  | succ fuel ih =>
    intro x n L hx h
    unfold pushLoop at h ⊢
    rw [hc x n hx]
    split_ifs at h ⊢ with hcn
    · cases hE : Eval n with
      | error er => rw [hE] at h; cases h
      | ok W =>
        rw [hE] at h
        obtain ⟨v, e1, e2, e3⟩ := he x n W hx hE
        have hnb := hcb n hcn
        have hx' := hx.add hf hi (by omega)
        cases hP : pushLoop Cond Eval (i : ℝ) fuel ((n : ℝ) + i) with
        | error er => rw [hP] at h; cases h
        | ok L' =>
          rw [hP] at h
          have hP' : pushLoop Cond Eval (i : ℝ) fuel ((n + i : ℕ) : ℝ) = .ok L' := by
            rw [Nat.cast_add]; exact hP
          obtain ⟨l, p1, p2⟩ := ih _ _ _ hx' hP'
          cases h
          refine ⟨⟨x, v⟩ :: l, ?_, .cons ⟨hx.fin, hx.real, e2, e3⟩ p2⟩
          rw [e1, p1]; rfl
    · cases h
      exact ⟨[], rfl, .nil⟩

theorem extrapConst_sim {s : VSPD (FP f)} {S : VSPD ℝ} {e : ℝ} (ht : Spec.Tracks e s S) {x : FP f} {X W : ℝ}
    (hx : Spec.SameNum x X) (h : extrapConst S X = .ok W) :
    ∃ v, extrapConst s x = .ok v ∧ v.isFinite = true ∧ |(v.val : ℝ) - W| ≤ e := by
  have hl := ht.len
  by_cases h0 : S.samples.length = 0
  · unfold extrapConst VSPD.first unwrap at h
    rw [List.length_eq_zero_iff.1 h0] at h
    cases h
  · have l0 : 0 < s.samples.length := by omega
    have lz : s.samples.length - 1 < s.samples.length := by omega
    have a1 : s.samples.head? = some s.samples[0] := by
      rw [List.head?_eq_getElem?]; exact List.getElem?_eq_getElem l0
    have a2 : S.samples.head? = some S.samples[0] := by
      rw [List.head?_eq_getElem?]; exact List.getElem?_eq_getElem (by omega)
    have b1 : s.samples.getLast? = some s.samples[s.samples.length - 1] := by
      rw [List.getLast?_eq_getElem?]; exact List.getElem?_eq_getElem lz
    have b2 : S.samples.getLast? = some (S.samples[s.samples.length - 1]'(by omega)) := by
      rw [List.getLast?_eq_getElem?, List.getElem?_eq_some_iff]
      exact ⟨by omega, by congr 1; omega⟩
    have r0 := forall₂_get ht.samples 0 l0 (by omega)
    have rz := forall₂_get ht.samples _ lz (by omega)
    unfold extrapConst VSPD.first VSPD.last unwrap at h ⊢
    rw [a1, b1]
    rw [a2, b2] at h
    have hc : (Flt.lt x s.samples[0].nm : Bool) = Flt.lt X S.samples[0].nm := by
      rw [flt_lt]; exact hx.lt ⟨r0.nm_fin, r0.nm⟩
    change (if Flt.lt X S.samples[0].nm = true then _ else _) = _ at h
    show ∃ v, (if Flt.lt x s.samples[0].nm = true then _ else _) = _ ∧ _
    rw [hc]
    split_ifs at h ⊢
    · cases h; exact ⟨_, rfl, r0.v_fin, r0.v⟩
    · cases h; exact ⟨_, rfl, rz.v_fin, rz.v⟩

/-- C90 [F]: in f32 and f64, when the exact `extrapolate` of a spectrum whose range and interval are whole
numbers returns, so does the float one, with exactly the same wavelengths and shape and no further error in
the values. -/
theorem C90_extrapolate (hf : Std f) (s : VSPD (FP f)) (S X : VSPD ℝ) (e : ℝ) (ht : Spec.Tracks e s S)
    (a z lo hi i : ℕ) (hS : S.shape = SpdShape.new (a : ℝ) z i) (sh : SpdShape (FP f)) (SH : SpdShape ℝ)
    (hsh : Spec.SameShape sh SH) (e1 : SH.start = lo) (e2 : SH.end = hi)
    (ha : a ≤ 2 ^ 20) (hz : z ≤ 2 ^ 20) (hb : hi ≤ 2 ^ 20) (hib : i ≤ 2 ^ 20)
    (fuel : ℕ) (h : S.extrapolate fuel SH = .ok X) :
    ∃ x, s.extrapolate fuel sh = .ok x ∧ Spec.Tracks e x X := by
  have hsi := ht.shape.interval
  rw [hS] at hsi
  obtain ⟨i', q1, q2⟩ := hsi.inv
  have hsa : Whole s.shape.start a := Spec.SameNum.whole (by have := ht.shape.start; rw [hS] at this; exact this)
  have hsz : Whole s.shape.end z := Spec.SameNum.whole (by have := ht.shape.stop; rw [hS] at this; exact this)
  have hlo : Whole sh.start lo := Spec.SameNum.whole (e1 ▸ hsh.start)
  have hhi : Whole sh.end hi := Spec.SameNum.whole (e2 ▸ hsh.stop)
  rw [extrapolate_eq fuel S SH (i : ℝ) (Or.inl (by rw [hS]; rfl))] at h
  have s1 : S.shape.start = a := by rw [hS]; rfl
  have s2 : S.shape.end = z := by rw [hS]; rfl
  rw [s1, s2, e1, e2, ← Nat.cast_min, ← Nat.cast_max, ← Nat.cast_add] at h
  cases hL : pushLoop (fun x => decide (x < (a : ℝ))) (extrapConst S) (i : ℝ) fuel ((min a lo : ℕ) : ℝ) with
  | error er => rw [hL] at h; cases h
  | ok L =>
    rw [hL] at h
    cases hR : pushLoop (fun x => decide (x ≤ ((max z hi : ℕ) : ℝ))) (extrapConst S) (i : ℝ) fuel
        ((z + i : ℕ) : ℝ) with
    | error er => simp only [bind, Except.bind, hR] at h; cases h
    | ok R =>
      simp only [bind, Except.bind, hR] at h
      cases h
      obtain ⟨l, l1, l2⟩ := pushLoop_sim (cond := fun x => Flt.lt x s.shape.start) (eval := extrapConst s)
        (e := e) hf q2.whole hib
        (fun x n hx => by
          show FP.lt x s.shape.start = decide ((n : ℝ) < a)
          rw [hx.lt hsa]; simp)
        (fun n hn => by
          have : n < a := by simpa using hn
          omega)
        (fun x n W hx hW => extrapConst_sim ht hx.sameNum hW) fuel (Flt.min s.shape.start sh.start)
        (min a lo) L (hsa.min hlo) hL
      obtain ⟨r, r1, r2⟩ := pushLoop_sim (cond := fun x => Flt.le x (Flt.max s.shape.end sh.end))
        (eval := extrapConst s) (e := e) hf q2.whole hib
        (fun x n hx => by
          show FP.le x (FP.max s.shape.end sh.end) = decide ((n : ℝ) ≤ ((max z hi : ℕ) : ℝ))
          rw [hx.le (hsz.max hhi)]; norm_cast)
        (fun n hn => by
          have : n ≤ max z hi := by
            have := of_decide_eq_true hn
            exact_mod_cast this
          omega)
        (fun x n W hx hW => extrapConst_sim ht hx.sameNum hW) fuel (s.shape.end + i') (z + i) R
        (hsz.add hf q2.whole (by omega)) hR
      refine ⟨⟨l ++ s.samples ++ r, SpdShape.new sh.start sh.end i'⟩, ?_, ?_, ?_⟩
      · unfold VSPD.extrapolate
        rw [q1]
        show (do
          let left ← pushLoop (fun x => Flt.lt x s.shape.start) (extrapConst s) i' fuel
            (Flt.min s.shape.start sh.start)
          let right ← pushLoop (fun x => Flt.le x (Flt.max s.shape.end sh.end)) (extrapConst s) i' fuel
            (s.shape.end + i')
          Except.ok (⟨left ++ s.samples ++ right, SpdShape.new sh.start sh.end i'⟩ : VSPD (FP f))) = _
        rw [l1]
        simp only [bind, Except.bind, r1]
      · exact List.rel_append (List.rel_append l2 ht.samples) r2
      · exact ⟨hlo.sameNum, hhi.sameNum, q2⟩

/-- C90 [F]: in f32 and f64, when the exact `align` of a spectrum at whole wavelengths to a whole-nanometre
shape returns, so does the float one with the same number of steps; the wavelengths and the shape are exactly
those of the exact result, and the values differ by at most `8940 u V + 89/64 e`. -/
theorem C90_align_follows (hf : Std f) (hp : PowiAccurate f) (s : VSPD (FP f)) (S R : VSPD ℝ) (e : ℝ)
    (ht : Spec.Tracks e s S) (hw : Spec.WholeGrid S) (V : ℝ) (hV : 1 / 2 ^ 60 ≤ V) (hV' : V ≤ 2 ^ 60)
    (hv : ∀ p ∈ S.samples, |p.v| + e ≤ V) (sh : SpdShape (FP f)) (lo hi i : ℕ) (hi0 : 0 < i)
    (hb : hi ≤ 2 ^ 20) (hib : i ≤ 2 ^ 20) (hsh : Spec.SameShape sh (SpdShape.new (lo : ℝ) hi i))
    (hov : max (lo : ℝ) S.shape.start ≤ min (hi : ℝ) S.shape.end) (fuel : ℕ)
    (hal : S.align fuel (SpdShape.new (lo : ℝ) hi i) = .ok R) :
    ∃ r, s.align fuel sh = .ok r ∧ Spec.Tracks (8940 * f.u * V + 89 / 64 * e) r R := by
  obtain ⟨a, z, ha, hz, ea, ez⟩ := WholeGrid.bounds hw
  have six := hw.six
  have hov' : max lo a ≤ min hi z := by
    have := hov
    rw [ea, ez, ← Nat.cast_max, ← Nat.cast_min] at this
    exact_mod_cast this
  obtain ⟨t, T, t1, t2, t3⟩ := C90_interpolate hf hp s S e ht hw V hV hV' hv sh lo hi i hi0 hb hib hsh hov
  obtain ⟨m1, m2, m3, -, -⟩ := C44_resamples S T _ (by omega) t2
  have hT : T.shape = SpdShape.new ((max lo a : ℕ) : ℝ) ((min hi z : ℕ) : ℝ) i := by
    rw [flt_max, ea] at m1
    rw [flt_min, ez] at m2
    cases hh : T.shape with
    | mk st en iv =>
      rw [hh] at m1 m2 m3
      dsimp only at m1 m2 m3
      rw [m1, m2, m3, Nat.cast_max, Nat.cast_min]; rfl
  unfold VSPD.align at hal ⊢
  rw [t2] at hal
  rw [t1]
  exact C90_extrapolate hf t T _ _ t3 _ _ lo hi i hT sh _ hsh rfl rfl (by omega) (by omega) hb hib fuel hal

/-- C90 [F]: in f32 and f64, `align` of a spectrum at whole wavelengths to a whole-nanometre shape that meets
its range terminates without panic; the wavelengths and the shape are exactly those of the exact result, and
the values differ by at most `8940 u V + 89/64 e`. -/
theorem C90_align (hf : Std f) (hp : PowiAccurate f) (s : VSPD (FP f)) (S : VSPD ℝ) (e : ℝ)
    (ht : Spec.Tracks e s S) (hw : Spec.WholeGrid S) (V : ℝ) (hV : 1 / 2 ^ 60 ≤ V) (hV' : V ≤ 2 ^ 60)
    (hv : ∀ p ∈ S.samples, |p.v| + e ≤ V) (sh : SpdShape (FP f)) (lo hi i : ℕ) (hi0 : 0 < i)
    (hb : hi ≤ 2 ^ 20) (hib : i ≤ 2 ^ 20) (hsh : Spec.SameShape sh (SpdShape.new (lo : ℝ) hi i))
    (hov : max (lo : ℝ) S.shape.start ≤ min (hi : ℝ) S.shape.end) :
    ∃ (N : ℕ) (R : VSPD ℝ), ∀ fuel, N ≤ fuel → S.align fuel (SpdShape.new (lo : ℝ) hi i) = .ok R ∧
      ∃ r, s.align fuel sh = .ok r ∧ Spec.Tracks (8940 * f.u * V + 89 / 64 * e) r R := by
  obtain ⟨a, z, ha, hz, ea, ez⟩ := WholeGrid.bounds hw
  have six := hw.six
  obtain ⟨N, hN⟩ := C46_align_exact S lo hi i ⟨by omega, hw.asc, hw.start, hw.stop, hov⟩
    (by exact_mod_cast hi0) _ _ _ rfl rfl rfl (by
      rw [ea, ez, ← Nat.cast_max, ← Nat.cast_min]
      have h1 : ((min hi z : ℕ) : ℝ) ≤ 2 ^ 20 := by exact_mod_cast (by omega : min hi z ≤ 2 ^ 20)
      have h2 : (1 : ℝ) ≤ i := by exact_mod_cast hi0
      have h3 : (0 : ℝ) ≤ ((max lo a : ℕ) : ℝ) := by positivity
      rw [div_lt_iff₀ (by linarith)]
      nlinarith)
  exact ⟨N, _, fun fuel hfuel => ⟨hN fuel hfuel,
    C90_align_follows hf hp s S _ e ht hw V hV hV' hv sh lo hi i hi0 hb hib hsh hov fuel (hN fuel hfuel)⟩⟩

theorem dropWhile_sim {α β : Type} {R : α → β → Prop} {p : α → Bool} {P : β → Bool}
    (hp : ∀ a b, R a b → p a = P b) {l : List α} {L : List β} (h : List.Forall₂ R l L) :
    List.Forall₂ R (l.dropWhile p) (L.dropWhile P) := by
  induction h with
  | nil => exact .nil
  | cons h h' ih =>
    rw [List.dropWhile_cons, List.dropWhile_cons, hp _ _ h]
    split_ifs
    · exact ih
    · exact .cons h h'

theorem takeWhile_sim {α β : Type} {R : α → β → Prop} {p : α → Bool} {P : β → Bool}
    (hp : ∀ a b, R a b → p a = P b) {l : List α} {L : List β} (h : List.Forall₂ R l L) :
    List.Forall₂ R (l.takeWhile p) (L.takeWhile P) := by
  induction h with
  | nil => exact .nil
  | cons h h' ih =>
    rw [List.takeWhile_cons, List.takeWhile_cons, hp _ _ h]
    split_ifs
    · exact .cons h ih
    · exact .nil

/-- C90 [F]: `trim` only compares and copies: it keeps exactly the same samples as the exact one, with no
further error, whatever the wavelengths. -/
theorem C90_trim (s : VSPD (FP f)) (S X : VSPD ℝ) (e : ℝ) (ht : Spec.Tracks e s S) (sh : SpdShape (FP f))
    (SH : SpdShape ℝ) (hsh : Spec.SameShape sh SH) (h : S.trim SH = .ok X) :
    ∃ x, s.trim sh = .ok x ∧ Spec.Tracks e x X := by
  have hsim : List.Forall₂ (Spec.NearSample e)
      ((s.samples.dropWhile fun p => Flt.lt p.nm sh.start).takeWhile fun p => Flt.le p.nm sh.end)
      ((S.samples.dropWhile fun p => Flt.lt p.nm SH.start).takeWhile fun p => Flt.le p.nm SH.end) := by
    refine takeWhile_sim (fun a b hab => ?_) (dropWhile_sim (fun a b hab => ?_) ht.samples)
    · rw [flt_le]; exact Spec.SameNum.le ⟨hab.nm_fin, hab.nm⟩ hsh.stop
    · rw [flt_lt]; exact Spec.SameNum.lt ⟨hab.nm_fin, hab.nm⟩ hsh.start
  unfold VSPD.trim at h ⊢
  dsimp only at h ⊢
  generalize ((s.samples.dropWhile fun p => Flt.lt p.nm sh.start).takeWhile fun p => Flt.le p.nm sh.end) = l at *
  generalize ((S.samples.dropWhile fun p => Flt.lt p.nm SH.start).takeWhile fun p => Flt.le p.nm SH.end) = L at *
  have hl := hsim.length_eq
  by_cases h0 : L.length = 0
  · rw [List.length_eq_zero_iff.1 h0] at h
    cases h
  · have a1 : l.head? = some (l[0]'(by omega)) := by
      rw [List.head?_eq_getElem?]; exact List.getElem?_eq_getElem (by omega)
    have a2 : L.head? = some (L[0]'(by omega)) := by
      rw [List.head?_eq_getElem?]; exact List.getElem?_eq_getElem (by omega)
    have b1 : l.getLast? = some (l[l.length - 1]'(by omega)) := by
      rw [List.getLast?_eq_getElem?]; exact List.getElem?_eq_getElem (by omega)
    have b2 : L.getLast? = some (L[l.length - 1]'(by omega)) := by
      rw [List.getLast?_eq_getElem?, List.getElem?_eq_some_iff]
      exact ⟨by omega, by congr 1; omega⟩
    have r0 := forall₂_get hsim 0 (by omega) (by omega)
    have rz := forall₂_get hsim (l.length - 1) (by omega) (by omega)
    rw [a2, b2] at h
    rw [a1, b1]
    cases h
    exact ⟨_, rfl, hsim, ⟨r0.nm_fin, r0.nm⟩, ⟨rz.nm_fin, rz.nm⟩, ht.shape.interval⟩

/-- C90 [F]: the restriction to whole numbers is needed: in f64 the grid from 0 to 0.3 in steps of 0.1 has
three points, the exact one four. `0.3 / 0.1` rounds to just below 3, so the end is lost. -/
theorem C90_fractional_grid [Libm Fmt.b64] :
    (∃ ws, (SpdShape.new (Flt.lit 0.0) (Flt.lit 0.3) (Flt.lit 0.1) : SpdShape (FP Fmt.b64)).wavelengths
      = .ok ws ∧ ws.length = 3) ∧
    (∃ WS, (SpdShape.new 0 0.3 0.1 : SpdShape ℝ).wavelengths = .ok WS ∧ WS.length = 4) := by
  constructor
  · have hn : Flt.toUsize (((Flt.lit 0.3 : FP Fmt.b64) - Flt.lit 0.0) / Flt.lit 0.1) = some 2 := by
      apply eq_of_beq
      krefl
    exact ⟨_, (C37_enumerates (SpdShape.new (Flt.lit 0.0) (Flt.lit 0.3) (Flt.lit 0.1) : SpdShape (FP Fmt.b64))
      _ 2 rfl hn).2, by simp⟩
  · have hn : Flt.toUsize (((0.3 : ℝ) - 0) / 0.1) = some 3 := by
      have e : ((0.3 : ℝ) - 0) / 0.1 = (3 : ℕ) := by norm_num
      rw [e, flt_toUsize, if_pos ⟨by norm_num, by norm_num⟩]
      norm_num
    exact ⟨_, (C37_enumerates (SpdShape.new 0 0.3 0.1 : SpdShape ℝ) _ 3 rfl hn).2, by simp⟩

/-- thirteen samples, the eleventh between 0.999 and 1 -/
def driftCheck : Res (VSPD (FP Fmt.b64)) → Bool
  | .ok r => (match r.samples[10]? with
    | some p => r.samples.length == 13 && (FP.lt (FP.lit 0.999) p.nm && FP.lt p.nm (FP.lit 1.0))
    | none => false)
  | .error _ => false

/-- a spectrum at 1.0 and 1.1 -/
def driftSpd [Libm Fmt.b64] : VSPD (FP Fmt.b64) :=
  ⟨[⟨Flt.lit 1.0, Flt.lit 1.0⟩, ⟨Flt.lit 1.1, Flt.lit 1.0⟩],
    SpdShape.new (Flt.lit 1.0) (Flt.lit 1.1) (Flt.lit 0.1)⟩

/-- C90 [F]: the same for `extrapolate`, which adds the step again and again: in f64, filling from 0 to a
spectrum that starts at 1 in steps of 0.1 inserts eleven samples instead of ten, the last one between 0.999
and 1, just below the first sample of the spectrum. -/
theorem C90_fractional_extrapolate [Libm Fmt.b64] :
    ∃ (r : VSPD (FP Fmt.b64)) (p : Sample (FP Fmt.b64)),
      driftSpd.extrapolate 20 (SpdShape.new (Flt.lit 0.0) (Flt.lit 1.1) (Flt.lit 0.1)) = .ok r ∧
      r.samples.length = 13 ∧ r.samples[10]? = some p ∧
      Flt.lt (Flt.lit 0.999) p.nm = true ∧ Flt.lt p.nm (Flt.lit 1.0) = true := by
  have h : driftCheck (driftSpd.extrapolate 20 (SpdShape.new (Flt.lit 0.0) (Flt.lit 1.1) (Flt.lit 0.1)))
      = true := by krefl
  revert h
  generalize driftSpd.extrapolate 20 (SpdShape.new (Flt.lit 0.0) (Flt.lit 1.1) (Flt.lit 0.1)) = o
  intro h
  cases o with
  | error e => simp [driftCheck] at h
  | ok r =>
    unfold driftCheck at h
    dsimp only at h
    cases hp : r.samples[10]? with
    | none => rw [hp] at h; simp at h
    | some p =>
      rw [hp] at h
      simp only [Bool.and_eq_true, beq_iff_eq] at h
      exact ⟨r, p, rfl, h.1, hp, h.2.1, h.2.2⟩

end
end CS

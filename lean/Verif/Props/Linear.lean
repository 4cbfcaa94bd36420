import Verif.Lemmas.Linear

/-!
# Resampling is linear in the spectrum (C43)

`IsLin a b u v w` says that spectrum `w` is `a*u + b*v`: same shape, same wavelengths, values
combined. `LinRes R x y z` says that three computations either all return, with related results, or
all panic (or diverge) in the same way.
-/

namespace CS

/-- C43 [R]: interpolating commutes with linear combinations. -/
theorem C43_interpolate (a b : ℝ) (u v w : VSPD ℝ) (shape : SpdShape ℝ) (h : IsLin a b u v w) :
    LinRes (IsLin a b) (u.interpolate shape) (v.interpolate shape) (w.interpolate shape) := by
  have hlen := h.samples.length
  by_cases hn : 2 ≤ u.samples.length
  · rw [interpolate_eq u shape hn, interpolate_eq v shape (by omega),
      interpolate_eq w shape (by omega), h.shape₁, h.shape₂]
    refine (LinRes.refl _).bind ?_
    rintro _ _ ws ⟨rfl, rfl⟩
    refine (h.mapM ws).bind ?_
    intro p' q' r' hl
    exact ⟨rfl, rfl, hl⟩
  · have hsp := h.spragueNew
    have hu : ∃ e, Sprague.new u = .error e := by
      have : u.samples.length = 0 ∨ u.samples.length = 1 := by omega
      rcases this with h0 | h1
      · rw [List.length_eq_zero_iff] at h0
        exact ⟨.unwrap, by unfold Sprague.new; rw [h0]; rfl⟩
      · obtain ⟨x, hx⟩ := List.length_eq_one_iff.1 h1
        exact ⟨.index, by unfold Sprague.new; rw [hx]; rfl⟩
    obtain ⟨e, he⟩ := hu
    rw [he] at hsp
    cases hv : Sprague.new v with
    | ok p => rw [hv] at hsp; exact hsp.elim
    | error e' =>
      cases hw : Sprague.new w with
      | ok p => rw [hv, hw] at hsp; exact hsp.elim
      | error e'' =>
        rw [hv, hw] at hsp
        unfold VSPD.interpolate
        rw [he, hv, hw]
        exact hsp

theorem LinS.extrapConst {a b : ℝ} {u v w : VSPD ℝ} (h : LinS a b u.samples v.samples w.samples)
    (x : ℝ) : LinRes (fun p q r => r = a * p + b * q) (extrapConst u x) (extrapConst v x)
      (extrapConst w x) := by
  unfold CS.extrapConst VSPD.first VSPD.last
  rcases h.head? with ⟨e1, e2, e3⟩ | ⟨n0, x0, y0, e1, e2, e3⟩
  · rw [e1, e2, e3]; exact ⟨rfl, rfl⟩
  · rcases h.getLast? with ⟨f1, f2, f3⟩ | ⟨nz, xz, yz, f1, f2, f3⟩
    · rw [f1] at e1; cases e1
    · rw [e1, e2, e3, f1, f2, f3]
      simp only [unwrap, bind, Except.bind]
      split
      · rfl
      · rfl

theorem LinS.pushLoop {a b : ℝ} {u v w : VSPD ℝ} (h : LinS a b u.samples v.samples w.samples)
    (cond : ℝ → Bool) (i : ℝ) (fuel : ℕ) (x : ℝ) :
    LinRes (LinS a b) (pushLoop cond (CS.extrapConst u) i fuel x)
      (pushLoop cond (CS.extrapConst v) i fuel x) (pushLoop cond (CS.extrapConst w) i fuel x) := by
  induction fuel generalizing x with
  | zero =>
    unfold CS.pushLoop
    split
    · exact ⟨rfl, rfl⟩
    · exact LinS.nil
  | succ fuel ih =>
    unfold CS.pushLoop
    split
    · refine (h.extrapConst x).bind ?_
      rintro p q r rfl
      refine (ih (x + i)).bind ?_
      intro p' q' r' hl
      exact LinS.cons _ _ _ hl
    · exact LinS.nil

/-- C43 [R]: extrapolating commutes with linear combinations. -/
theorem C43_extrapolate (a b : ℝ) (u v w : VSPD ℝ) (shape : SpdShape ℝ) (fuel : ℕ)
    (h : IsLin a b u v w) : LinRes (IsLin a b) (u.extrapolate fuel shape) (v.extrapolate fuel shape)
      (w.extrapolate fuel shape) := by
  unfold VSPD.extrapolate VSPD.start VSPD.end
  rw [h.shape₁, h.shape₂]
  dsimp only
  split
  · simp only [bind, Except.bind]
    refine (h.samples.pushLoop _ _ _ _).bind ?_
    intro l1 l2 l3 hl
    refine (h.samples.pushLoop _ _ _ _).bind ?_
    intro r1 r2 r3 hr
    exact ⟨rfl, rfl, (hl.append h.samples).append hr⟩
  · split
    · simp only [bind, Except.bind]
      refine (h.samples.pushLoop _ _ _ _).bind ?_
      intro l1 l2 l3 hl
      refine (h.samples.pushLoop _ _ _ _).bind ?_
      intro r1 r2 r3 hr
      exact ⟨rfl, rfl, (hl.append h.samples).append hr⟩
    · exact ⟨rfl, rfl⟩

/-- C43 [R]: aligning commutes with linear combinations. -/
theorem C43_align (a b : ℝ) (u v w : VSPD ℝ) (shape : SpdShape ℝ) (fuel : ℕ)
    (h : IsLin a b u v w) : LinRes (IsLin a b) (u.align fuel shape) (v.align fuel shape)
      (w.align fuel shape) := by
  unfold VSPD.align
  refine (C43_interpolate a b u v w shape h).bind ?_
  intro u' v' w' h'
  exact C43_extrapolate a b u' v' w' shape fuel h'

/-- C43 [R]: trimming commutes with linear combinations. -/
theorem C43_trim (a b : ℝ) (u v w : VSPD ℝ) (shape : SpdShape ℝ) (h : IsLin a b u v w) :
    LinRes (IsLin a b) (u.trim shape) (v.trim shape) (w.trim shape) := by
  unfold VSPD.trim
  have hl := (h.samples.dropWhile (fun x => Flt.lt x shape.start)).takeWhile
    (fun x => Flt.le x shape.end)
  rw [h.shape₁, h.shape₂]
  rcases hl.head? with ⟨e1, e2, e3⟩ | ⟨n0, x0, y0, e1, e2, e3⟩
  · rw [e1, e2, e3]; exact ⟨rfl, rfl⟩
  · rcases hl.getLast? with ⟨f1, f2, f3⟩ | ⟨nz, xz, yz, f1, f2, f3⟩
    · rw [f1] at e1; cases e1
    · simp only [e1, e2, e3, f1, f2, f3, unwrap, bind, Except.bind]
      exact ⟨rfl, rfl, hl⟩

/-- Not vacuous: two spectra on 400, 410 and their combination `2u + 3v`. -/
example : IsLin 2 3 ⟨[⟨400, 1⟩, ⟨410, 2⟩], SpdShape.new 400 410 10⟩
    ⟨[⟨400, 5⟩, ⟨410, 7⟩], SpdShape.new 400 410 10⟩
    ⟨[⟨400, 17⟩, ⟨410, 25⟩], SpdShape.new 400 410 10⟩ := by
  refine ⟨rfl, rfl, ?_⟩
  have := LinS.cons (a := 2) (b := 3) 400 1 5 (LinS.cons 410 2 7 .nil)
  norm_num at this
  exact this

end CS

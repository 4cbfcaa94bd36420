import Verif.Props.Resample

/-! # Linear combinations of spectra and of results -/

namespace CS

/-- pointwise `w = a*u + b*v` -/
inductive LinV (a b : ℝ) : List ℝ → List ℝ → List ℝ → Prop
  | nil : LinV a b [] [] []
  | cons {u v w : List ℝ} (x y : ℝ) (h : LinV a b u v w) :
      LinV a b (x :: u) (y :: v) ((a * x + b * y) :: w)

/-- the samples `w` are `a` times the samples `u` plus `b` times the samples `v`, all three at the
same wavelengths -/
inductive LinS (a b : ℝ) : List (Sample ℝ) → List (Sample ℝ) → List (Sample ℝ) → Prop
  | nil : LinS a b [] [] []
  | cons {u v w : List (Sample ℝ)} (nm x y : ℝ) (h : LinS a b u v w) :
      LinS a b (⟨nm, x⟩ :: u) (⟨nm, y⟩ :: v) (⟨nm, a * x + b * y⟩ :: w)

/-- spectrum `w` is `a*u + b*v`: same shape, same wavelengths, values combined -/
structure IsLin (a b : ℝ) (u v w : VSPD ℝ) : Prop where
  shape₁ : v.shape = u.shape
  shape₂ : w.shape = u.shape
  samples : LinS a b u.samples v.samples w.samples

/-- three computations that either all return, with results related by `R`, or all panic in the same
way -/
def LinRes {α : Type} (R : α → α → α → Prop) : Res α → Res α → Res α → Prop
  | .ok x, .ok y, .ok z => R x y z
  | .error e, .error e', .error e'' => e = e' ∧ e = e''
  | _, _, _ => False

theorem LinRes.bind {α β : Type} {R : α → α → α → Prop} {R' : β → β → β → Prop}
    {x y z : Res α} {f g h : α → Res β} (H : LinRes R x y z)
    (H' : ∀ p q r, R p q r → LinRes R' (f p) (g q) (h r)) :
    LinRes R' (x >>= f) (y >>= g) (z >>= h) := by
  cases x <;> cases y <;> cases z <;> simp only [LinRes] at H
  · exact H
  · exact H' _ _ _ H

theorem LinRes.mono {α : Type} {R R' : α → α → α → Prop} {x y z : Res α} (H : LinRes R x y z)
    (H' : ∀ p q r, R p q r → R' p q r) : LinRes R' x y z := by
  cases x <;> cases y <;> cases z <;> simp only [LinRes] at H ⊢
  · exact H
  · exact H' _ _ _ H

namespace LinV
variable {a b : ℝ} {u v w : List ℝ}

theorem length (h : LinV a b u v w) : v.length = u.length ∧ w.length = u.length := by
  induction h with
  | nil => simp
  | cons x y _ ih => simp [ih.1, ih.2]

theorem append {u' v' w' : List ℝ} (h : LinV a b u v w) (h' : LinV a b u' v' w') :
    LinV a b (u ++ u') (v ++ v') (w ++ w') := by
  induction h with
  | nil => exact h'
  | cons x y _ ih => exact .cons x y ih

theorem reverse (h : LinV a b u v w) : LinV a b u.reverse v.reverse w.reverse := by
  induction h with
  | nil => exact .nil
  | cons x y _ ih =>
    simp only [List.reverse_cons]
    exact ih.append (.cons x y .nil)

theorem getD (h : LinV a b u v w) (k : ℕ) : w.getD k 0 = a * u.getD k 0 + b * v.getD k 0 := by
  induction h generalizing k with
  | nil => simp
  | cons x y _ ih =>
    cases k with
    | zero => simp
    | succ k => simpa using ih k

theorem sum (h : LinV a b u v w) : w.sum = a * u.sum + b * v.sum := by
  induction h with
  | nil => simp
  | cons x y _ ih => simp [ih]; ring

theorem zipMul (h : LinV a b u v w) (c : List ℝ) :
    LinV a b (List.zipWith (· * ·) c u) (List.zipWith (· * ·) c v) (List.zipWith (· * ·) c w) := by
  induction h generalizing c with
  | nil => simpa using LinV.nil
  | cons x y _ ih =>
    cases c with
    | nil => simpa using LinV.nil
    | cons c cs =>
      simp only [List.zipWith_cons_cons]
      have := LinV.cons (a := a) (b := b) (c * x) (c * y) (ih cs)
      rwa [show a * (c * x) + b * (c * y) = c * (a * x + b * y) by ring] at this

theorem dotSum (h : LinV a b u v w) (c : List ℝ) :
    CS.dotSum c w = a * CS.dotSum c u + b * CS.dotSum c v := by
  rw [dotSum_eq, dotSum_eq, dotSum_eq]
  exact (h.zipMul c).sum

end LinV

namespace LinS
variable {a b : ℝ} {u v w : List (Sample ℝ)}

theorem length (h : LinS a b u v w) : v.length = u.length ∧ w.length = u.length := by
  induction h with
  | nil => simp
  | cons nm x y _ ih => simp [ih.1, ih.2]

theorem nm (h : LinS a b u v w) :
    v.map Sample.nm = u.map Sample.nm ∧ w.map Sample.nm = u.map Sample.nm := by
  induction h with
  | nil => simp
  | cons nm x y _ ih => simp [ih.1, ih.2]

theorem values (h : LinS a b u v w) : LinV a b (u.map Sample.v) (v.map Sample.v) (w.map Sample.v) := by
  induction h with
  | nil => exact .nil
  | cons nm x y _ ih => exact .cons x y ih

theorem append {u' v' w' : List (Sample ℝ)} (h : LinS a b u v w) (h' : LinS a b u' v' w') :
    LinS a b (u ++ u') (v ++ v') (w ++ w') := by
  induction h with
  | nil => exact h'
  | cons nm x y _ ih => exact .cons nm x y ih

theorem head? (h : LinS a b u v w) : (u = [] ∧ v = [] ∧ w = []) ∨
    ∃ nm x y, u.head? = some ⟨nm, x⟩ ∧ v.head? = some ⟨nm, y⟩ ∧ w.head? = some ⟨nm, a * x + b * y⟩ := by
  cases h with
  | nil => simp
  | cons nm x y _ => right; exact ⟨nm, x, y, rfl, rfl, rfl⟩

theorem getLast? (h : LinS a b u v w) : (u = [] ∧ v = [] ∧ w = []) ∨
    ∃ nm x y, u.getLast? = some ⟨nm, x⟩ ∧ v.getLast? = some ⟨nm, y⟩ ∧
      w.getLast? = some ⟨nm, a * x + b * y⟩ := by
  induction h with
  | nil => simp
  | cons nm x y h ih =>
    right
    rcases ih with ⟨rfl, rfl, rfl⟩ | ⟨nm', x', y', h1, h2, h3⟩
    · exact ⟨nm, x, y, rfl, rfl, rfl⟩
    · exact ⟨nm', x', y', by simp [List.getLast?_cons, h1], by simp [List.getLast?_cons, h2],
        by simp [List.getLast?_cons, h3]⟩

theorem getElem? (h : LinS a b u v w) (k : ℕ) : (u[k]? = none ∧ v[k]? = none ∧ w[k]? = none) ∨
    ∃ nm x y, u[k]? = some ⟨nm, x⟩ ∧ v[k]? = some ⟨nm, y⟩ ∧ w[k]? = some ⟨nm, a * x + b * y⟩ := by
  induction h generalizing k with
  | nil => simp
  | cons nm x y h ih =>
    cases k with
    | zero => right; exact ⟨nm, x, y, rfl, rfl, rfl⟩
    | succ k => simpa using ih k

theorem dropWhile (h : LinS a b u v w) (c : ℝ → Bool) : LinS a b (u.dropWhile fun p => c p.nm)
    (v.dropWhile fun p => c p.nm) (w.dropWhile fun p => c p.nm) := by
  induction h with
  | nil => exact .nil
  | cons nm x y h ih =>
    simp only [List.dropWhile_cons]
    split
    · exact ih
    · exact .cons nm x y h

theorem takeWhile (h : LinS a b u v w) (c : ℝ → Bool) : LinS a b (u.takeWhile fun p => c p.nm)
    (v.takeWhile fun p => c p.nm) (w.takeWhile fun p => c p.nm) := by
  induction h with
  | nil => exact .nil
  | cons nm x y h ih =>
    simp only [List.takeWhile_cons]
    split
    · exact .cons nm x y ih
    · exact .nil

end LinS

/-- any two spectra on the same wavelengths with the same shape have a linear combination -/
theorem exists_isLin (a b : ℝ) (u v : VSPD ℝ) (hs : v.shape = u.shape)
    (hw : v.wavelengths = u.wavelengths) : ∃ w, IsLin a b u v w := by
  have : ∀ (p q : List (Sample ℝ)), q.map Sample.nm = p.map Sample.nm → ∃ r, LinS a b p q r := by
    intro p
    induction p with
    | nil => intro q hq; simp at hq; subst hq; exact ⟨[], .nil⟩
    | cons x p ih =>
      intro q hq
      cases q with
      | nil => simp at hq
      | cons y q =>
        simp only [List.map_cons, List.cons.injEq] at hq
        obtain ⟨r, hr⟩ := ih q hq.2
        obtain ⟨n, xv⟩ := x
        obtain ⟨n', yv⟩ := y
        simp only at hq
        obtain ⟨rfl, -⟩ := hq
        exact ⟨_, .cons n' xv yv hr⟩
  obtain ⟨r, hr⟩ := this u.samples v.samples hw
  exact ⟨⟨r, u.shape⟩, hs, rfl, hr⟩

/-! ## Sprague -/

theorem IsLin.spragueNew {a b : ℝ} {u v w : VSPD ℝ} (h : IsLin a b u v w) :
    LinRes (fun p q r => q.x = p.x ∧ r.x = p.x ∧ LinV a b p.y q.y r.y ∧ ∃ n, 2 ≤ n ∧
      p.x.length = n + 4 ∧ p.y.length = n + 4)
      (Sprague.new u) (Sprague.new v) (Sprague.new w) := by
  have hlen := h.samples.length
  rcases h.samples.head? with ⟨e1, e2, e3⟩ | ⟨n0, x0, y0, e1, e2, e3⟩
  · unfold Sprague.new
    rw [e1, e2, e3]
    exact ⟨rfl, rfl⟩
  · rcases h.samples.getLast? with ⟨f1, f2, f3⟩ | ⟨nz, xz, yz, f1, f2, f3⟩
    · rw [f1] at e1; cases e1
    · rcases h.samples.getElem? 1 with ⟨g1, g2, g3⟩ | ⟨n1, x1, y1, g1, g2, g3⟩
      · unfold Sprague.new
        rw [e1, e2, e3, f1, f2, f3]
        simp only [unwrap, bind, Except.bind, idx, g1, g2, g3]
        exact ⟨rfl, rfl⟩
      · rw [List.head?_eq_getElem?] at e1 e2 e3
        rw [Sprague.new_eq u _ _ _ e1 g1 f1, Sprague.new_eq v _ _ _ e2 g2 f2,
          Sprague.new_eq w _ _ _ e3 g3 f3]
        have hnm := h.samples.nm
        have hv := h.samples.values
        refine ⟨?_, ?_, ?_, u.samples.length, ?_, extX_length _ _ _ _, extY_length _⟩
        · simp only [extX, VSPD.wavelengths, hnm.1]
        · simp only [extX, VSPD.wavelengths, hnm.2]
        · have hd : ∀ c : List ℝ, dotSum c (w.samples.map Sample.v) / 209
              = a * (dotSum c (u.samples.map Sample.v) / 209)
                + b * (dotSum c (v.samples.map Sample.v) / 209) := by
            intro c; rw [hv.dotSum]; ring
          have hd' : ∀ c : List ℝ, dotSum c (w.samples.map Sample.v).reverse / 209
              = a * (dotSum c (u.samples.map Sample.v).reverse / 209)
                + b * (dotSum c (v.samples.map Sample.v).reverse / 209) := by
            intro c; rw [hv.reverse.dotSum]; ring
          have l209 : (Flt.lit 209.0 : ℝ) = 209 := by norm_num
          unfold extY VSPD.values
          rw [l209]
          refine LinV.append (LinV.append ?_ hv) ?_
          · rw [hd, hd]; exact .cons _ _ (.cons _ _ .nil)
          · rw [hd', hd']; exact .cons _ _ (.cons _ _ .nil)
        · have := (List.getElem?_eq_some_iff.1 g1).1; omega

theorem IsLin.spragueEval {a b : ℝ} {u v w : VSPD ℝ} (h : IsLin a b u v w) (x : ℝ) :
    LinRes (fun p q r => r = a * p + b * q) (spragueEval u x) (spragueEval v x)
      (spragueEval w x) := by
  unfold CS.spragueEval
  refine h.spragueNew.bind ?_
  rintro p q r ⟨e1, e2, hy, n, hn, hx, hyl⟩
  rw [Sprague.evaluate_eq p n hn hx hyl x,
    Sprague.evaluate_eq q n hn (by rw [e1]; exact hx) (by rw [hy.length.1]; exact hyl) x,
    Sprague.evaluate_eq r n hn (by rw [e2]; exact hx) (by rw [hy.length.2]; exact hyl) x, e1, e2]
  cases p.x.findIdx? (fun t => Flt.lt x t) with
  | none => exact ⟨rfl, rfl⟩
  | some m =>
    cases m with
    | zero => exact ⟨rfl, rfl⟩
    | succ k =>
      show spragueAt r (spragueI n k) x = a * spragueAt p (spragueI n k) x
        + b * spragueAt q (spragueI n k) x
      generalize spragueI n k = i
      unfold spragueAt
      rw [e1, e2]
      have hz : (Flt.zero : ℝ) = 0 := by simp [Flt.zero]
      rw [hz, hy.getD, hy.getD, hy.getD, hy.getD, hy.getD, hy.getD]
      have := spraguePoly_linear a b
        ![p.y.getD (i - 2) 0, p.y.getD (i - 1) 0, p.y.getD i 0, p.y.getD (i + 1) 0,
          p.y.getD (i + 2) 0, p.y.getD (i + 3) 0]
        ![q.y.getD (i - 2) 0, q.y.getD (i - 1) 0, q.y.getD i 0, q.y.getD (i + 1) 0,
          q.y.getD (i + 2) 0, q.y.getD (i + 3) 0]
        ((x - p.x.getD i 0) / (p.x.getD (i + 1) 0 - p.x.getD i 0))
      simpa using this

theorem IsLin.mapM {a b : ℝ} {u v w : VSPD ℝ} (h : IsLin a b u v w) (ws : List ℝ) :
    LinRes (LinS a b) (ws.mapM (evalSample u)) (ws.mapM (evalSample v)) (ws.mapM (evalSample w)) := by
  induction ws with
  | nil => exact LinS.nil
  | cons nm ws ih =>
    rw [List.mapM_cons, List.mapM_cons, List.mapM_cons]
    have he : LinRes (fun p q r => p.nm = nm ∧ q.nm = nm ∧ r.nm = nm ∧ r.v = a * p.v + b * q.v)
        (evalSample u nm) (evalSample v nm) (evalSample w nm) := by
      have := h.spragueEval nm
      unfold evalSample
      cases h1 : CS.spragueEval u nm <;> cases h2 : CS.spragueEval v nm <;>
        cases h3 : CS.spragueEval w nm <;> rw [h1, h2, h3] at this <;> simp only [LinRes] at this
      · exact this
      · exact ⟨rfl, rfl, rfl, this⟩
    refine he.bind ?_
    rintro ⟨n1, p⟩ ⟨n2, q⟩ ⟨n3, r⟩ ⟨h1, h2, h3, h4⟩
    simp only at h1 h2 h3 h4
    subst h1 h2 h4
    rw [h3]
    refine ih.bind ?_
    intro p' q' r' hl
    exact LinS.cons _ _ _ hl

theorem LinRes.refl {α : Type} (x : Res α) : LinRes (fun p q r => q = p ∧ r = p) x x x := by
  cases x
  · exact ⟨rfl, rfl⟩
  · exact ⟨rfl, rfl⟩

end CS

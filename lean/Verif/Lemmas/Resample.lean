import Verif.Props.Sprague

/-! # Lemmas about resampling: `mapM`, the push loops, linear combinations -/

namespace CS

theorem mapM_ok_iff {α β : Type} (g : α → Res β) (ws : List α) (l : List β) :
    ws.mapM g = .ok l ↔ List.Forall₂ (fun w x => g w = .ok x) ws l := by
  induction ws generalizing l with
  | nil =>
    rw [List.mapM_nil]
    constructor
    · intro h; cases h; exact .nil
    · intro h; cases h; rfl
  | cons w ws ih =>
    rw [List.mapM_cons]
    constructor
    · intro h
      cases hg : g w with
      | error e => rw [hg] at h; cases h
      | ok x =>
        rw [hg] at h
        cases hm : ws.mapM g with
        | error e => rw [hm] at h; cases h
        | ok xs =>
          rw [hm] at h
          cases h
          exact .cons hg ((ih xs).1 hm)
    · intro h
      cases h with
      | cons h1 h2 =>
        rw [h1, (ih _).2 h2]; rfl

theorem exists_mapM_ok {α β : Type} (g : α → Res β) (ws : List α) (h : ∀ w ∈ ws, ∃ x, g w = .ok x) :
    ∃ l, ws.mapM g = .ok l := by
  induction ws with
  | nil => exact ⟨[], rfl⟩
  | cons w ws ih =>
    obtain ⟨x, hx⟩ := h w (by simp)
    obtain ⟨l, hl⟩ := ih (fun w' hw' => h w' (List.mem_cons_of_mem _ hw'))
    exact ⟨x :: l, by rw [List.mapM_cons, hx, hl]; rfl⟩

section
variable {T : Type} [Add T] [Sub T] [Mul T] [Div T] [Neg T] [Flt T]

/-- the sample computed by `interpolate` at `nm` -/
def evalSample (s : VSPD T) (nm : T) : Res (Sample T) :=
  match spragueEval s nm with
  | .error e => .error e
  | .ok v => .ok ⟨nm, v⟩

/-- `interpolate`, with the interpolator folded into `spragueEval` -/
theorem interpolate_eq (s : VSPD T) (shape : SpdShape T) (hn : 2 ≤ s.samples.length) :
    s.interpolate shape = (do
      let ws ← (⟨Flt.max shape.start s.shape.start, Flt.min shape.end s.shape.end,
        shape.interval⟩ : SpdShape T).wavelengths
      let samples ← ws.mapM (evalSample s)
      .ok ⟨samples, ⟨Flt.max shape.start s.shape.start, Flt.min shape.end s.shape.end,
        shape.interval⟩⟩) := by
  have h0 : s.samples[0]? = some (s.samples[0]) := List.getElem?_eq_getElem (by omega)
  have h1 : s.samples[1]? = some (s.samples[1]) := List.getElem?_eq_getElem (by omega)
  have hz : s.samples.getLast? = some (s.samples[s.samples.length - 1]) := by
    rw [List.getLast?_eq_getElem?]; exact List.getElem?_eq_getElem (by omega)
  have hnew := Sprague.new_eq s _ _ _ h0 h1 hz
  have he : evalSample s = (fun nm =>
      (⟨extX s s.samples[0].nm s.samples[1].nm s.samples[s.samples.length - 1].nm,
        extY s⟩ : Sprague T).evaluate nm >>= fun v => Except.ok (⟨nm, v⟩ : Sample T)) := by
    funext nm
    unfold evalSample spragueEval
    rw [hnew]
    simp only [bind, Except.bind]
    split <;> rename_i h <;> rw [h]
  unfold VSPD.interpolate
  rw [hnew, he]
  rfl

/-- a push loop whose condition holds for exactly `m` rounds -/
theorem pushLoop_eq (cond : ℝ → Bool) (eval : ℝ → Res ℝ) (g : ℝ → ℝ) (i : ℝ) (m : ℕ) :
    ∀ (fuel : ℕ) (x : ℝ), m ≤ fuel → (∀ k : ℕ, k < m → cond (x + k * i) = true) →
      cond (x + m * i) = false → (∀ k : ℕ, k < m → eval (x + k * i) = .ok (g (x + k * i))) →
      pushLoop cond eval i fuel x
        = .ok ((List.range m).map fun k : ℕ => ⟨x + k * i, g (x + k * i)⟩) := by
  induction m with
  | zero =>
    intro fuel x _ _ h _
    have h : cond x = false := by simpa using h
    cases fuel <;> simp [pushLoop, h]
  | succ m ih =>
    intro fuel x hf hc hstop he
    cases fuel with
    | zero => omega
    | succ fuel =>
      have shift : ∀ k : ℕ, x + i + (k:ℝ) * i = x + ((k + 1 : ℕ) : ℝ) * i := by
        intro k; push_cast; ring
      have hrec := ih fuel (x + i) (by omega)
        (fun k hk => by rw [shift]; exact hc (k + 1) (by omega))
        (by rw [shift]; exact hstop)
        (fun k hk => by rw [shift]; exact he (k + 1) (by omega))
      have h0 : cond x = true := by simpa using hc 0 (by omega)
      have e0 : eval x = .ok (g x) := by simpa using he 0 (by omega)
      unfold pushLoop
      rw [if_pos h0, e0]
      simp only [bind, Except.bind]
      rw [hrec]
      simp only [List.range_succ_eq_map, List.map_cons, List.map_map, Function.comp_def, shift]
      simp

/-- a push loop whose condition never fails -/
theorem pushLoop_diverge (cond : ℝ → Bool) (eval : ℝ → Res ℝ) (i : ℝ) :
    ∀ (fuel : ℕ) (x : ℝ), (∀ k : ℕ, cond (x + k * i) = true) →
      (∀ y, ∃ v, eval y = .ok v) → pushLoop cond eval i fuel x = .error .diverge := by
  intro fuel
  induction fuel with
  | zero =>
    intro x h _
    have : cond x = true := by simpa using h 0
    simp [pushLoop, this]
  | succ fuel ih =>
    intro x h he
    have h0 : cond x = true := by simpa using h 0
    obtain ⟨v, hv⟩ := he x
    have hrec := ih (x + i) (fun k => by
      have := h (k + 1)
      rw [show x + i + (k:ℝ) * i = x + ((k + 1 : ℕ) : ℝ) * i by push_cast; ring]
      exact this) he
    unfold pushLoop
    rw [if_pos h0, hv]
    simp only [bind, Except.bind]
    rw [hrec]

end

end CS

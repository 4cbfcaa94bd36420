import Verif.Lemmas.Sprague
import Verif.Lemmas.FPOrder

/-!
# Sprague interpolation (C40 - C42, C68)

`spragueEval s x` is `InterpolatorSprague::new(&s).evaluate(x)`.
-/

namespace CS

/-- `InterpolatorSprague::new(&s).evaluate(x)` -/
def spragueEval {T : Type} [Add T] [Sub T] [Mul T] [Div T] [Neg T] [Flt T] (s : VSPD T) (x : T) :
    Res T := do
  let p ← Sprague.new s
  p.evaluate x

/-! ## C42: totality -/

/-- C42 [G]: with two or more samples (`a` first, `b` second, `z` last, `h = b.nm - a.nm`) the only
panics are: `x` is below no wavelength of the extended grid (unwrap), or `x` is below its first
wavelength `a.nm - 2h` (subtraction overflow). There is never an index out of bounds. -/
theorem C42_exact {T : Type} [Add T] [Sub T] [Mul T] [Div T] [Neg T] [Flt T] (s : VSPD T)
    (a b z : Sample T) (x : T) (h0 : s.samples[0]? = some a) (h1 : s.samples[1]? = some b)
    (hz : s.samples.getLast? = some z) :
    let h := b.nm - a.nm
    let grid := [a.nm - h * Flt.lit 2.0, a.nm - h] ++ s.samples.map Sample.nm ++
      [z.nm + h, z.nm + h * Flt.lit 2.0]
    ((∀ t ∈ grid, Flt.lt x t = false) → spragueEval s x = .error .unwrap) ∧
    (Flt.lt x (a.nm - h * Flt.lit 2.0) = true → spragueEval s x = .error .overflow) ∧
    ((∃ t ∈ grid, Flt.lt x t = true) → Flt.lt x (a.nm - h * Flt.lit 2.0) = false →
      ∃ v, spragueEval s x = .ok v) := by
  have hn : 2 ≤ s.samples.length := by
    have := (List.getElem?_eq_some_iff.1 h1).1; omega
  have he : spragueEval s x = (⟨extX s a.nm b.nm z.nm, extY s⟩ : Sprague T).evaluate x := by
    unfold spragueEval
    rw [Sprague.new_eq s a b z h0 h1 hz]; rfl
  have hev := Sprague.evaluate_eq (⟨extX s a.nm b.nm z.nm, extY s⟩ : Sprague T) s.samples.length hn
    (extX_length _ _ _ _) (extY_length _) x
  rw [← he] at hev
  intro h grid
  have hg : extX s a.nm b.nm z.nm = grid := rfl
  simp only [hg] at hev
  refine ⟨fun hall => ?_, fun hlt => ?_, fun hex hlt => ?_⟩
  · rw [hev]
    have : grid.findIdx? (fun t => Flt.lt x t) = none := by
      rw [List.findIdx?_eq_none_iff]; exact hall
    rw [this]
  · rw [hev]
    have : grid.findIdx? (fun t => Flt.lt x t) = some 0 := by
      simp only [grid, List.cons_append, List.findIdx?_cons, hlt]; rfl
    rw [this]
  · rw [hev]
    cases hf : grid.findIdx? (fun t => Flt.lt x t) with
    | none =>
      rw [List.findIdx?_eq_none_iff] at hf
      obtain ⟨t, ht, hx⟩ := hex
      rw [hf t ht] at hx; cases hx
    | some k =>
      cases k with
      | zero =>
        rw [List.findIdx?_eq_some_iff_getElem] at hf
        obtain ⟨hl, hp, -⟩ := hf
        have e : grid[0] = a.nm - h * Flt.lit 2.0 := rfl
        rw [e, hlt] at hp; cases hp
      | succ k => exact ⟨_, rfl⟩

/-- C42 [R]: if the second wavelength is above the first, evaluation succeeds everywhere on
`[first - 2h, last + 2h)`, in particular between the first and the last wavelength; below it panics,
and from `last + 2h` on it panics if no wavelength exceeds the last. -/
theorem C42_total (s : VSPD ℝ) (a b z : Sample ℝ) (h0 : s.samples[0]? = some a)
    (h1 : s.samples[1]? = some b) (hz : s.samples.getLast? = some z) (hab : a.nm < b.nm) :
    (∀ x, a.nm ≤ x → x ≤ z.nm → ∃ v, spragueEval s x = .ok v) ∧
    (∀ x, a.nm - 2 * (b.nm - a.nm) ≤ x → x < z.nm + 2 * (b.nm - a.nm) →
      ∃ v, spragueEval s x = .ok v) ∧
    (∀ x, x < a.nm - 2 * (b.nm - a.nm) → spragueEval s x = .error .overflow) ∧
    ((∀ p ∈ s.samples, p.nm ≤ z.nm) → ∀ x, z.nm + 2 * (b.nm - a.nm) ≤ x →
      spragueEval s x = .error .unwrap) := by
  have l2 : (Flt.lit 2.0 : ℝ) = 2 := by norm_num
  have key : ∀ x, a.nm - 2 * (b.nm - a.nm) ≤ x → x < z.nm + 2 * (b.nm - a.nm) →
      ∃ v, spragueEval s x = .ok v := by
    intro x hl hr
    refine (C42_exact s a b z x h0 h1 hz).2.2 ⟨z.nm + (b.nm - a.nm) * Flt.lit 2.0, by simp, ?_⟩ ?_
    · rw [flt_lt, l2]; exact decide_eq_true (by linarith)
    · rw [flt_lt, l2]; exact decide_eq_false (by linarith)
  refine ⟨fun x hl hr => key x (by linarith) (by linarith), key, fun x hx => ?_, fun hle x hx => ?_⟩
  · refine (C42_exact s a b z x h0 h1 hz).2.1 ?_
    rw [flt_lt, l2]; exact decide_eq_true (by linarith)
  · refine (C42_exact s a b z x h0 h1 hz).1 ?_
    have ha : a.nm ≤ z.nm := hle a (List.mem_of_getElem? h0)
    intro t ht
    rw [flt_lt]
    apply decide_eq_false
    rw [l2] at ht
    simp only [List.cons_append, List.nil_append, List.mem_cons, List.mem_append, List.mem_map,
      List.not_mem_nil, or_false] at ht
    rcases ht with rfl | rfl | ⟨p, hp, rfl⟩ | rfl | rfl
    · linarith
    · linarith
    · have := hle p hp; linarith
    · linarith
    · linarith

/-- Not vacuous: a two-sample spectrum. -/
example : ∃ v, spragueEval (⟨[⟨400, 1⟩, ⟨410, 3⟩], SpdShape.new 400 410 10⟩ : VSPD ℝ) 405 = .ok v :=
  (C42_total _ ⟨400, 1⟩ ⟨410, 3⟩ ⟨410, 3⟩ rfl rfl rfl (by norm_num)).1 405 (by norm_num)
    (by norm_num)

/-! ## Evaluation by interval, exact arithmetic -/

theorem extX_sorted (s : VSPD ℝ) (a b z : Sample ℝ) (h0 : s.samples[0]? = some a)
    (h1 : s.samples[1]? = some b) (hz : s.samples.getLast? = some z)
    (hs : s.wavelengths.Pairwise (· < ·)) :
    (extX s a.nm b.nm z.nm).Pairwise (· < ·) := by
  have hlen : 2 ≤ s.samples.length := by
    have := (List.getElem?_eq_some_iff.1 h1).1; omega
  have hnth : ∀ (j k : ℕ) (p q : Sample ℝ), s.samples[j]? = some p → s.samples[k]? = some q →
      j < k → p.nm < q.nm := by
    intro j k p q hp hq hjk
    obtain ⟨hj, rfl⟩ := List.getElem?_eq_some_iff.1 hp
    obtain ⟨hk, rfl⟩ := List.getElem?_eq_some_iff.1 hq
    have := List.pairwise_iff_getElem.1 hs j k (by simpa [VSPD.wavelengths] using hj)
      (by simpa [VSPD.wavelengths] using hk) hjk
    simpa [VSPD.wavelengths] using this
  have hab : a.nm < b.nm := hnth 0 1 a b h0 h1 (by omega)
  have hz' : s.samples[s.samples.length - 1]? = some z := by rw [← List.getLast?_eq_getElem?]; exact hz
  have hge : ∀ p ∈ s.samples, a.nm ≤ p.nm ∧ p.nm ≤ z.nm := by
    intro p hp
    obtain ⟨k, hk⟩ := List.mem_iff_getElem?.1 hp
    have hkl := (List.getElem?_eq_some_iff.1 hk).1
    constructor
    · rcases Nat.eq_zero_or_pos k with rfl | hk0
      · rw [h0] at hk; cases hk; exact le_rfl
      · exact (hnth 0 k a p h0 hk hk0).le
    · rcases Nat.lt_or_ge k (s.samples.length - 1) with h | h
      · exact (hnth k _ p z hk hz' h).le
      · have : k = s.samples.length - 1 := by omega
        subst this
        rw [hz'] at hk; cases hk; exact le_rfl
  have haz := (hge a (List.mem_of_getElem? h0)).2
  have l2 : (Flt.lit 2.0 : ℝ) = 2 := by norm_num
  unfold extX
  rw [l2, List.pairwise_append, List.pairwise_append]
  have hmem : ∀ t ∈ s.wavelengths, a.nm ≤ t ∧ t ≤ z.nm := by
    intro t ht
    obtain ⟨p, hp, rfl⟩ := List.mem_map.1 ht
    exact hge p hp
  refine ⟨⟨?_, hs, ?_⟩, ?_, ?_⟩
  · simp; linarith
  · intro t ht u hu
    have := hmem u hu
    simp only [List.mem_cons, List.not_mem_nil, or_false] at ht
    rcases ht with rfl | rfl <;> linarith
  · simp; linarith
  · intro t ht u hu
    simp only [List.mem_append, List.mem_cons, List.not_mem_nil, or_false] at ht hu
    have ht' : t ≤ z.nm := by
      rcases ht with (rfl | rfl) | ht
      · linarith
      · linarith
      · exact (hmem t ht).2
    rcases hu with rfl | rfl <;> linarith

/-- value in the interval between samples `k` and `k+1` (both ends included) -/
theorem spragueEval_between (s : VSPD ℝ) (a b z : Sample ℝ) (h0 : s.samples[0]? = some a)
    (h1 : s.samples[1]? = some b) (hz : s.samples.getLast? = some z)
    (hs : s.wavelengths.Pairwise (· < ·)) (k : ℕ) (p q : Sample ℝ) (hp : s.samples[k]? = some p)
    (hq : s.samples[k + 1]? = some q) (x : ℝ) (hx : p.nm ≤ x) (hx' : x < q.nm) :
    spragueEval s x = .ok (spragueAt ⟨extX s a.nm b.nm z.nm, extY s⟩ (k + 2) x) := by
  have hn : 2 ≤ s.samples.length := by
    have := (List.getElem?_eq_some_iff.1 h1).1; omega
  have hk := (List.getElem?_eq_some_iff.1 hq).1
  have he : spragueEval s x = (⟨extX s a.nm b.nm z.nm, extY s⟩ : Sprague ℝ).evaluate x := by
    unfold spragueEval
    rw [Sprague.new_eq s a b z h0 h1 hz]; rfl
  rw [he, Sprague.evaluate_eq _ s.samples.length hn (extX_length _ _ _ _) (extY_length _) x]
  have hsort := (extX_sorted s a b z h0 h1 hz hs).imp le_of_lt
  have hlen := extX_length s a.nm b.nm z.nm
  have ex1 := extX_getD s a.nm b.nm z.nm 0 k p hp
  have ex2 := extX_getD s a.nm b.nm z.nm 0 (k + 1) q hq
  have hf := findIdx?_sorted id (extX s a.nm b.nm z.nm) (by simpa using hsort) x (k + 2) (by omega)
    (by
      rw [List.getD_eq_getElem _ _ (by omega)] at ex1
      simpa [ex1] using hx)
    (by
      rw [List.getD_eq_getElem _ _ (by omega)] at ex2
      have : (extX s a.nm b.nm z.nm)[k + 2 + 1]'(by omega) = q.nm := ex2
      simpa [this] using hx')
  simp only [flt_lt]
  simp only [id] at hf
  rw [hf]
  show Except.ok (spragueAt _ (spragueI _ (k + 2)) x) = _
  have : spragueI s.samples.length (k + 2) = k + 2 := by unfold spragueI; omega
  rw [this]

/-- value from the last sample on -/
theorem spragueEval_right (s : VSPD ℝ) (a b z : Sample ℝ) (h0 : s.samples[0]? = some a)
    (h1 : s.samples[1]? = some b) (hz : s.samples.getLast? = some z)
    (hs : s.wavelengths.Pairwise (· < ·)) (x : ℝ) (hx : z.nm ≤ x)
    (hx' : x < z.nm + 2 * (b.nm - a.nm)) :
    spragueEval s x = .ok (spragueAt ⟨extX s a.nm b.nm z.nm, extY s⟩ s.samples.length x) := by
  have hn : 2 ≤ s.samples.length := by
    have := (List.getElem?_eq_some_iff.1 h1).1; omega
  have he : spragueEval s x = (⟨extX s a.nm b.nm z.nm, extY s⟩ : Sprague ℝ).evaluate x := by
    unfold spragueEval
    rw [Sprague.new_eq s a b z h0 h1 hz]; rfl
  rw [he, Sprague.evaluate_eq _ s.samples.length hn (extX_length _ _ _ _) (extY_length _) x]
  have hsort := (extX_sorted s a b z h0 h1 hz hs).imp le_of_lt
  have hlen := extX_length s a.nm b.nm z.nm
  have hz' : s.samples[s.samples.length - 1]? = some z := by
    rw [← List.getLast?_eq_getElem?]; exact hz
  have l2 : (Flt.lit 2.0 : ℝ) = 2 := by norm_num
  cases hf : (extX s a.nm b.nm z.nm).findIdx? (fun t => Flt.lt x t) with
  | none =>
    rw [List.findIdx?_eq_none_iff] at hf
    have := hf (z.nm + (b.nm - a.nm) * Flt.lit 2.0) (by simp [extX])
    rw [flt_lt, l2] at this
    exact absurd (of_decide_eq_false this) (by simp; linarith)
  | some m =>
    rw [List.findIdx?_eq_some_iff_getElem] at hf
    obtain ⟨hm, hlt, -⟩ := hf
    rw [flt_lt] at hlt
    have hlt := of_decide_eq_true hlt
    -- everything up to index n+1 is at most `z.nm`
    have hbig : s.samples.length + 2 ≤ m := by
      by_contra hc
      have e := extX_getD s a.nm b.nm z.nm 0 (s.samples.length - 1) z hz'
      rw [show s.samples.length - 1 + 2 = s.samples.length + 1 by omega,
        List.getD_eq_getElem _ _ (by omega)] at e
      have hle : (extX s a.nm b.nm z.nm)[m] ≤ (extX s a.nm b.nm z.nm)[s.samples.length + 1]'(by omega) := by
        rcases Nat.lt_or_ge m (s.samples.length + 1) with h | h
        · exact List.pairwise_iff_getElem.1 hsort m _ _ _ h
        · have : m = s.samples.length + 1 := by omega
          subst this; exact le_rfl
      rw [e] at hle
      linarith
    obtain ⟨k, rfl⟩ : ∃ k, m = k + 1 := ⟨m - 1, by omega⟩
    show Except.ok (spragueAt _ (spragueI _ k) x) = _
    have : spragueI s.samples.length k = s.samples.length := by unfold spragueI; omega
    rw [this]

/-! ## C40: the samples are reproduced -/

/-- C40 [R]: for strictly increasing wavelengths (evenly spaced or not) evaluating at any sample's
wavelength, including the first and the last, gives exactly that sample's value. -/
theorem C40_passes_samples (s : VSPD ℝ) (hn : 2 ≤ s.samples.length)
    (hs : s.wavelengths.Pairwise (· < ·)) (p : Sample ℝ) (hp : p ∈ s.samples) :
    spragueEval s p.nm = .ok p.v := by
  obtain ⟨k, hk⟩ := List.mem_iff_getElem?.1 hp
  have hkl := (List.getElem?_eq_some_iff.1 hk).1
  have h0 : s.samples[0]? = some (s.samples[0]) := List.getElem?_eq_getElem (by omega)
  have h1 : s.samples[1]? = some (s.samples[1]) := List.getElem?_eq_getElem (by omega)
  have hz' : s.samples[s.samples.length - 1]? = some (s.samples[s.samples.length - 1]) :=
    List.getElem?_eq_getElem (by omega)
  have hz : s.samples.getLast? = some (s.samples[s.samples.length - 1]) := by
    rw [List.getLast?_eq_getElem?]; exact hz'
  have hlt : ∀ (j k : ℕ) (hj : j < s.samples.length) (hk : k < s.samples.length), j < k →
      s.samples[j].nm < s.samples[k].nm := by
    intro j k hj hk hjk
    have := List.pairwise_iff_getElem.1 hs j k (by simpa [VSPD.wavelengths] using hj)
      (by simpa [VSPD.wavelengths] using hk) hjk
    simpa [VSPD.wavelengths] using this
  rcases Nat.lt_or_ge (k + 1) s.samples.length with h | h
  · have hq : s.samples[k + 1]? = some (s.samples[k + 1]) := List.getElem?_eq_getElem h
    have hpe : p = s.samples[k] := by
      rw [List.getElem?_eq_getElem hkl] at hk; exact (Option.some.inj hk).symm
    rw [spragueEval_between s _ _ _ h0 h1 hz hs k p _ hk hq p.nm le_rfl
      (by rw [hpe]; exact hlt _ _ _ _ (by omega))]
    unfold spragueAt
    simp only []
    rw [extX_getD s _ _ _ _ k p hk, sub_self, zero_div, spraguePoly_zero,
      extY_getD s _ k p hk]
  · have hkn : k = s.samples.length - 1 := by omega
    subst hkn
    rw [hz'] at hk
    cases hk
    have h01 := hlt 0 1 (by omega) (by omega) (by omega)
    rw [spragueEval_right s _ _ _ h0 h1 hz hs _ le_rfl (by linarith)]
    have ez := extX_getD s s.samples[0].nm s.samples[1].nm s.samples[s.samples.length - 1].nm
      (Flt.zero : ℝ) _ _ hz'
    have hm' : s.samples[s.samples.length - 2]? = some (s.samples[s.samples.length - 2]) :=
      List.getElem?_eq_getElem (by omega)
    have em := extX_getD s s.samples[0].nm s.samples[1].nm s.samples[s.samples.length - 1].nm
      (Flt.zero : ℝ) _ _ hm'
    have ey := extY_getD s (Flt.zero : ℝ) _ _ hz'
    rw [show s.samples.length - 1 + 2 = s.samples.length + 1 by omega] at ez ey
    rw [show s.samples.length - 2 + 2 = s.samples.length by omega] at em
    unfold spragueAt
    simp only []
    rw [ez, em, ey, div_self, spraguePoly_one]
    have := hlt (s.samples.length - 2) (s.samples.length - 1) (by omega) (by omega) (by omega)
    linarith

/-- Not vacuous: the last sample of a three-sample spectrum. -/
example : spragueEval (⟨[⟨400, 1⟩, ⟨410, 3⟩, ⟨420, 7⟩], SpdShape.new 400 420 10⟩ : VSPD ℝ) 420
    = .ok 7 :=
  C40_passes_samples _ (by simp) (by norm_num [VSPD.wavelengths]) ⟨420, 7⟩ (by simp)

/-! ## C41: constants and straight lines -/

/-- C41 [R], partial: with at least six evenly spaced samples lying on the line `α + β*nm`
(a constant for `β = 0`), evaluation gives `α + β*x` on the whole domain
`[first - 2h, last + 2h)`, so in particular between the first and last wavelength. Missing: fewer
than six samples, where it is false (`C41_counterexample`). -/
theorem C41_lines_partial (s : VSPD ℝ) (x0 h α β : ℝ) (hh : 0 < h) (hl : 6 ≤ s.samples.length)
    (hu : ∀ (k : ℕ) (p : Sample ℝ), s.samples[k]? = some p → p.nm = x0 + k * h ∧
      p.v = α + β * p.nm)
    (x : ℝ) (hx : x0 - 2 * h ≤ x) (hx' : x < x0 + (s.samples.length + 1) * h) :
    spragueEval s x = .ok (α + β * x) := by
  have h0 : s.samples[0]? = some (s.samples[0]) := List.getElem?_eq_getElem (by omega)
  have h1 : s.samples[1]? = some (s.samples[1]) := List.getElem?_eq_getElem (by omega)
  have hz' : s.samples[s.samples.length - 1]? = some (s.samples[s.samples.length - 1]) :=
    List.getElem?_eq_getElem (by omega)
  have hz : s.samples.getLast? = some (s.samples[s.samples.length - 1]) := by
    rw [List.getLast?_eq_getElem?]; exact hz'
  have e0 : s.samples[0].nm = x0 := by simpa using (hu 0 _ h0).1
  have e1 : s.samples[1].nm = x0 + h := by simpa using (hu 1 _ h1).1
  have ez : s.samples[s.samples.length - 1].nm = x0 + ((s.samples.length : ℝ) - 1) * h := by
    rw [(hu _ _ hz').1, Nat.cast_sub (by omega)]; simp
  obtain ⟨v, hv⟩ := (C42_total s _ _ _ h0 h1 hz (by rw [e0, e1]; linarith)).2.1 x
    (by rw [e0, e1]; linarith) (by rw [e0, e1, ez]; linarith)
  have he : spragueEval s x = (⟨extX s s.samples[0].nm s.samples[1].nm
      s.samples[s.samples.length - 1].nm, extY s⟩ : Sprague ℝ).evaluate x := by
    unfold spragueEval
    rw [Sprague.new_eq s _ _ _ h0 h1 hz]; rfl
  have hev := Sprague.evaluate_eq (⟨extX s s.samples[0].nm s.samples[1].nm
      s.samples[s.samples.length - 1].nm, extY s⟩ : Sprague ℝ) s.samples.length (by omega)
      (extX_length _ _ _ _) (extY_length _) x
  rw [he] at hv ⊢
  rw [hv] at hev ⊢
  have key : ∀ i, 2 ≤ i → i ≤ s.samples.length → spragueAt (⟨extX s s.samples[0].nm
      s.samples[1].nm s.samples[s.samples.length - 1].nm, extY s⟩ : Sprague ℝ) i x
        = α + β * x := by
    intro i hi hi'
    have X := extX_uniform s x0 h _ _ _ h0 h1 hz (fun k p hp => (hu k p hp).1)
    have Y := extY_line s x0 h α β hl (fun k p hp => by rw [(hu k p hp).2, (hu k p hp).1])
    unfold spragueAt
    simp only [Flt.zero, flt_lit, Rat.cast_zero]
    rw [X i (by omega), X (i + 1) (by omega), Y (i - 2) (by omega), Y (i - 1) (by omega),
      Y i (by omega), Y (i + 1) (by omega), Y (i + 2) (by omega), Y (i + 3) (by omega),
      spraguePoly_real, Nat.cast_sub (by omega), Nat.cast_sub (by omega)]
    push_cast
    have hd : (x0 + ((i:ℝ) + 1 - 2) * h - (x0 + ((i:ℝ) - 2) * h)) = h := by ring
    rw [hd]
    have hxe : x = x0 + ((i:ℝ) - 2) * h + h * ((x - (x0 + ((i:ℝ) - 2) * h)) / h) := by
      field_simp; ring
    generalize (x - (x0 + ((i:ℝ) - 2) * h)) / h = d at hxe ⊢
    rw [hxe]
    ring
  cases hf : (extX s s.samples[0].nm s.samples[1].nm s.samples[s.samples.length - 1].nm).findIdx?
      (fun t => Flt.lt x t) with
  | none => simp only [hf] at hev; cases hev
  | some m =>
    cases m with
    | zero => simp only [hf] at hev; cases hev
    | succ k =>
      simp only [hf] at hev
      rw [hev, key _ (spragueI_bounds (by omega) k).1 (spragueI_bounds (by omega) k).2]

/-- Not vacuous: six samples of 2 + 3*nm. -/
example : spragueEval (⟨[⟨0, 2⟩, ⟨1, 5⟩, ⟨2, 8⟩, ⟨3, 11⟩, ⟨4, 14⟩, ⟨5, 17⟩],
    SpdShape.new 0 5 1⟩ : VSPD ℝ) 2.5 = .ok (2 + 3 * 2.5) := by
  refine C41_lines_partial _ 0 1 2 3 (by norm_num) (by simp) (fun k p hp => ?_) _ (by norm_num)
    (by norm_num)
  match k, hp with
  | 0, hp | 1, hp | 2, hp | 3, hp | 4, hp | 5, hp =>
    simp at hp; subst hp; norm_num
  | k + 6, hp => simp at hp

/-- C41 [R], counterexample below six samples: two samples with value 1 do not give 1 half-way. -/
theorem C41_counterexample : ∃ v : ℝ,
    spragueEval (⟨[⟨0, 1⟩, ⟨1, 1⟩], SpdShape.new 0 1 1⟩ : VSPD ℝ) (1 / 2) = .ok v ∧ v ≠ 1 := by
  have hs : (⟨[⟨0, 1⟩, ⟨1, 1⟩], SpdShape.new 0 1 1⟩ : VSPD ℝ).wavelengths.Pairwise (· < ·) := by
    norm_num [VSPD.wavelengths]
  refine ⟨_, spragueEval_between _ ⟨0, 1⟩ ⟨1, 1⟩ ⟨1, 1⟩ rfl rfl rfl hs 0 ⟨0, 1⟩ ⟨1, 1⟩ rfl rfl _
    (by norm_num) (by norm_num), ?_⟩
  unfold spragueAt
  rw [spraguePoly_real]
  norm_num [extX, extY, VSPD.wavelengths, VSPD.values, coeffC0, coeffC1, coeffC2, coeffC3, dotSum,
    fsum, List.zipWith]

/-! ## C68: quartics -/

/-- C68 [R]: away from the ends (at least two samples to the left of the interval and two to the
right of it) evenly spaced samples of a polynomial of degree at most four are interpolated
exactly. -/
theorem C68_quartics (s : VSPD ℝ) (x0 h : ℝ) (hh : 0 < h) (f : ℝ → ℝ) (c0 c1 c2 c3 c4 : ℝ)
    (hf : ∀ t, f t = c0 + c1 * t + c2 * t ^ 2 + c3 * t ^ 3 + c4 * t ^ 4)
    (hl : 6 ≤ s.samples.length)
    (hu : ∀ (k : ℕ) (p : Sample ℝ), s.samples[k]? = some p → p.nm = x0 + k * h ∧ p.v = f p.nm)
    (x : ℝ) (hx : x0 + 2 * h ≤ x) (hx' : x ≤ x0 + ((s.samples.length : ℝ) - 3) * h) :
    spragueEval s x = .ok (f x) := by
  have h0 : s.samples[0]? = some (s.samples[0]) := List.getElem?_eq_getElem (by omega)
  have h1 : s.samples[1]? = some (s.samples[1]) := List.getElem?_eq_getElem (by omega)
  have hz' : s.samples[s.samples.length - 1]? = some (s.samples[s.samples.length - 1]) :=
    List.getElem?_eq_getElem (by omega)
  have hz : s.samples.getLast? = some (s.samples[s.samples.length - 1]) := by
    rw [List.getLast?_eq_getElem?]; exact hz'
  have hs : s.wavelengths.Pairwise (· < ·) := by
    rw [List.pairwise_iff_getElem]
    intro i j hi hj hij
    simp only [VSPD.wavelengths, List.length_map] at hi hj
    simp only [VSPD.wavelengths, List.getElem_map]
    rw [(hu i _ (List.getElem?_eq_getElem hi)).1, (hu j _ (List.getElem?_eq_getElem hj)).1]
    have : (i:ℝ) < j := by exact_mod_cast hij
    nlinarith
  rcases eq_or_lt_of_le hx' with he | hlt
  · -- the right end is a sample
    have hk : s.samples[s.samples.length - 3]? = some (s.samples[s.samples.length - 3]) :=
      List.getElem?_eq_getElem (by omega)
    obtain ⟨hnm, hv⟩ := hu _ _ hk
    have hxe : x = s.samples[s.samples.length - 3].nm := by
      rw [hnm, he, Nat.cast_sub (by omega)]; norm_num
    rw [hxe, C40_passes_samples s (by omega) hs _ (List.mem_of_getElem? hk), hv]
  · -- locate the interval
    have hq : 2 ≤ (x - x0) / h := by rw [le_div_iff₀ hh]; linarith
    have hfl := Nat.floor_le (show 0 ≤ (x - x0) / h by linarith)
    have hfl' := Nat.lt_floor_add_one ((x - x0) / h)
    set k := ⌊(x - x0) / h⌋₊ with hkdef
    have hk2 : 2 ≤ k := Nat.le_floor (by exact_mod_cast hq)
    have hq' : (x - x0) / h < (s.samples.length : ℝ) - 3 := by rw [div_lt_iff₀ hh]; linarith
    have hkn : k + 3 < s.samples.length := by
      have : (k:ℝ) < (s.samples.length : ℝ) - 3 := lt_of_le_of_lt hfl hq'
      have h2 : ((k + 3 : ℕ) : ℝ) < s.samples.length := by push_cast; linarith
      exact_mod_cast h2
    have hpk : s.samples[k]? = some (s.samples[k]) := List.getElem?_eq_getElem (by omega)
    have hqk : s.samples[k + 1]? = some (s.samples[k + 1]) := List.getElem?_eq_getElem (by omega)
    have hxk : x0 + k * h ≤ x := by rw [le_div_iff₀ hh] at hfl; linarith
    have hxk' : x < x0 + (k + 1) * h := by rw [div_lt_iff₀ hh] at hfl'; linarith
    rw [spragueEval_between s _ _ _ h0 h1 hz hs k _ _ hpk hqk x (by rw [(hu _ _ hpk).1]; exact hxk)
      (by rw [(hu _ _ hqk).1]; push_cast; exact hxk')]
    have X := extX_uniform s x0 h _ _ _ h0 h1 hz (fun k p hp => (hu k p hp).1)
    have Y : ∀ j : ℕ, j < s.samples.length →
        (extY s).getD (j + 2) (Flt.zero : ℝ) = f (x0 + j * h) := by
      intro j hj
      have hj' : s.samples[j]? = some (s.samples[j]) := List.getElem?_eq_getElem hj
      rw [extY_getD s _ j _ hj', (hu _ _ hj').2, (hu _ _ hj').1]
    have y0 := Y (k - 2) (by omega)
    have y1 := Y (k - 1) (by omega)
    have y2 := Y k (by omega)
    have y3 := Y (k + 1) (by omega)
    have y4 := Y (k + 2) (by omega)
    have y5 := Y (k + 3) (by omega)
    rw [show k - 2 + 2 = k + 2 - 2 by omega, Nat.cast_sub hk2] at y0
    rw [show k - 1 + 2 = k + 2 - 1 by omega, Nat.cast_sub (by omega)] at y1
    unfold spragueAt
    simp only []
    have X1 := X (k + 2) (by omega)
    have X2 := X (k + 2 + 1) (by omega)
    simp only [Flt.zero, flt_lit, Rat.cast_zero] at y0 y1 y2 y3 y4 y5 ⊢
    rw [X1, X2, y0, y1, y2, show k + 2 + 1 = k + 1 + 2 by omega, y3,
      show k + 2 + 2 = k + 2 + 2 by omega, y4, show k + 2 + 3 = k + 3 + 2 by omega, y5,
      spraguePoly_real]
    push_cast
    have hd : (x0 + ((k:ℝ) + 1 + 2 - 2) * h - (x0 + ((k:ℝ) + 2 - 2) * h)) = h := by ring
    rw [hd]
    have hxe : x = x0 + (k:ℝ) * h + h * ((x - (x0 + ((k:ℝ) + 2 - 2) * h)) / h) := by
      field_simp; ring
    generalize (x - (x0 + ((k:ℝ) + 2 - 2) * h)) / h = d at hxe ⊢
    rw [hxe]
    simp only [hf]
    congr 1
    ring

/-- Not vacuous: six samples of the fourth power. -/
example : spragueEval (⟨[⟨0, 0⟩, ⟨1, 1⟩, ⟨2, 16⟩, ⟨3, 81⟩, ⟨4, 256⟩, ⟨5, 625⟩],
    SpdShape.new 0 5 1⟩ : VSPD ℝ) 2.5 = .ok (2.5 ^ 4) := by
  refine C68_quartics _ 0 1 (by norm_num) (fun t => t ^ 4) 0 0 0 0 1 (fun t => by ring) (by simp)
    (fun k p hp => ?_) _ (by norm_num) (by norm_num)
  match k, hp with
  | 0, hp | 1, hp | 2, hp | 3, hp | 4, hp | 5, hp =>
    simp at hp; subst hp; norm_num
  | k + 6, hp => simp at hp

end CS

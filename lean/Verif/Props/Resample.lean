import Verif.Lemmas.Resample
import Verif.Props.Vspd

/-!
# Resampling (C44 - C46)
-/

namespace CS

/-! ## C44: interpolate -/

/-- C44 [G]: when `interpolate(shape)` returns, the reported range is the common range, the interval
is the requested one, the samples lie exactly on the grid of that reported shape, and each value is
the Sprague interpolation at its wavelength. -/
theorem C44_resamples {T : Type} [Add T] [Sub T] [Mul T] [Div T] [Neg T] [Flt T] (s r : VSPD T)
    (shape : SpdShape T) (hn : 2 ≤ s.samples.length) (h : s.interpolate shape = .ok r) :
    r.shape.start = Flt.max shape.start s.shape.start ∧
    r.shape.end = Flt.min shape.end s.shape.end ∧ r.shape.interval = shape.interval ∧
    r.shape.wavelengths = .ok r.wavelengths ∧
    ∀ p ∈ r.samples, spragueEval s p.nm = .ok p.v := by
  rw [interpolate_eq s shape hn] at h
  cases hw : (⟨Flt.max shape.start s.shape.start, Flt.min shape.end s.shape.end,
      shape.interval⟩ : SpdShape T).wavelengths with
  | error e => rw [hw] at h; cases h
  | ok ws =>
    rw [hw] at h
    simp only [bind, Except.bind] at h
    cases hm : ws.mapM (evalSample s) with
    | error e => rw [hm] at h; cases h
    | ok l =>
      rw [hm] at h
      cases h
      rw [mapM_ok_iff] at hm
      refine ⟨rfl, rfl, rfl, ?_, ?_⟩
      · rw [hw]
        congr 1
        show ws = l.map Sample.nm
        clear hw
        induction hm with
        | nil => rfl
        | cons h1 _ ih =>
          rw [List.map_cons, ← ih]
          congr 1
          unfold evalSample at h1
          split at h1
          · cases h1
          · cases h1; rfl
      · intro p hp
        obtain ⟨k, hk, rfl⟩ := List.mem_iff_getElem.1 hp
        have hlen := hm.length_eq
        have hk : k < l.length := hk
        have := hm.get (by omega) hk
        simp only [List.get_eq_getElem] at this
        unfold evalSample at this
        split at this
        · cases this
        · rename_i v hv
          cases hl : l[k] with
          | mk nm v' =>
            rw [hl] at this
            cases this
            exact hv

/-- C44 [R]: it returns whenever the requested interval is positive, the two ranges overlap, and the
spectrum's range is inside the domain of the interpolation (first wavelength below the second,
`[first - 2h, last + 2h)` contains the reported range). -/
theorem C44_total (s : VSPD ℝ) (shape : SpdShape ℝ) (i : ℝ) (a b z : Sample ℝ)
    (h0 : s.samples[0]? = some a) (h1 : s.samples[1]? = some b)
    (hz : s.samples.getLast? = some z) (hab : a.nm < b.nm)
    (hl : a.nm - 2 * (b.nm - a.nm) ≤ s.shape.start) (hr : s.shape.end < z.nm + 2 * (b.nm - a.nm))
    (hi : shape.interval = .uniform i) (hpos : 0 < i)
    (hov : max shape.start s.shape.start ≤ min shape.end s.shape.end)
    (hfit : (min shape.end s.shape.end - max shape.start s.shape.start) / i < 2 ^ 64) :
    ∃ r, s.interpolate shape = .ok r := by
  have hn : 2 ≤ s.samples.length := by
    have := (List.getElem?_eq_some_iff.1 h1).1; omega
  rw [interpolate_eq s shape hn]
  simp only [flt_max, flt_min]
  set sh : SpdShape ℝ := ⟨max shape.start s.shape.start, min shape.end s.shape.end,
    shape.interval⟩ with hsh
  have hreal := C37_real sh i hi hpos.ne'
  obtain ⟨ws, hw⟩ := hreal.1.2 ⟨by
    have : 0 ≤ (sh.end - sh.start) / i := div_nonneg (by simp only [hsh]; linarith) hpos.le
    linarith, hfit⟩
  obtain ⟨-, -, hmem⟩ := hreal.2 ws hw
  obtain ⟨-, hmem⟩ := hmem hpos hov
  rw [hw]
  simp only [bind, Except.bind]
  obtain ⟨l, hl'⟩ := exists_mapM_ok (evalSample s) ws (by
    intro w hww
    obtain ⟨hwe, k, hk⟩ := (hmem w).1 hww
    have hk0 : (0:ℝ) ≤ k * i := by positivity
    have e1 : s.shape.start ≤ sh.start := le_max_right _ _
    have e2 : sh.end ≤ s.shape.end := min_le_right _ _
    obtain ⟨v, hv⟩ := (C42_total s a b z h0 h1 hz hab).2.1 w (by linarith) (by linarith)
    exact ⟨⟨w, v⟩, by unfold evalSample; rw [hv]⟩)
  rw [hl']
  exact ⟨_, rfl⟩

/-- C44 [R]: at every grid point that is a wavelength of the original spectrum, the result holds the
original value. -/
theorem C44_keeps_samples (s r : VSPD ℝ) (shape : SpdShape ℝ) (hn : 2 ≤ s.samples.length)
    (hs : s.wavelengths.Pairwise (· < ·)) (h : s.interpolate shape = .ok r)
    (p q : Sample ℝ) (hp : p ∈ r.samples) (hq : q ∈ s.samples) (hpq : p.nm = q.nm) : p = q := by
  have h1 := (C44_resamples s r shape hn h).2.2.2.2 p hp
  rw [hpq, C40_passes_samples s hn hs q hq] at h1
  cases h1' : p with
  | mk a b => rw [h1'] at hpq h1; cases hq' : q; rw [hq'] at hpq h1; simp_all

/-- C44 [R]: when the grids coincide (same interval, requested range containing the spectrum's)
`interpolate` returns the spectrum unchanged, samples and shape. -/
theorem C44_same_grid (s : VSPD ℝ) (shape : SpdShape ℝ) (x0 h : ℝ) (hh : 0 < h)
    (hn : 2 ≤ s.samples.length) (hfit : s.samples.length < 2 ^ 64)
    (hu : ∀ (k : ℕ) (p : Sample ℝ), s.samples[k]? = some p → p.nm = x0 + k * h)
    (hs0 : s.shape = ⟨x0, x0 + ((s.samples.length : ℝ) - 1) * h, .uniform h⟩)
    (hi : shape.interval = .uniform h) (hst : shape.start ≤ s.shape.start)
    (hen : s.shape.end ≤ shape.end) :
    s.interpolate shape = .ok s := by
  have h0 : s.samples[0]? = some (s.samples[0]) := List.getElem?_eq_getElem (by omega)
  have h1 : s.samples[1]? = some (s.samples[1]) := List.getElem?_eq_getElem (by omega)
  have hz' : s.samples[s.samples.length - 1]? = some (s.samples[s.samples.length - 1]) :=
    List.getElem?_eq_getElem (by omega)
  have hz : s.samples.getLast? = some (s.samples[s.samples.length - 1]) := by
    rw [List.getLast?_eq_getElem?]; exact hz'
  have e0 : s.samples[0].nm = x0 := by simpa using hu 0 _ h0
  have e1 : s.samples[1].nm = x0 + h := by simpa using hu 1 _ h1
  have ez : s.samples[s.samples.length - 1].nm = x0 + ((s.samples.length : ℝ) - 1) * h := by
    rw [hu _ _ hz', Nat.cast_sub (by omega)]; simp
  have hs : s.wavelengths.Pairwise (· < ·) := by
    rw [List.pairwise_iff_getElem]
    intro i j hi hj hij
    simp only [VSPD.wavelengths, List.length_map] at hi hj
    simp only [VSPD.wavelengths, List.getElem_map]
    rw [hu i _ (List.getElem?_eq_getElem hi), hu j _ (List.getElem?_eq_getElem hj)]
    have : (i:ℝ) < j := by exact_mod_cast hij
    nlinarith
  have hn' : (2:ℝ) ≤ s.samples.length := by exact_mod_cast hn
  have es : s.shape.start = x0 := by rw [hs0]
  have ee : s.shape.end = x0 + ((s.samples.length : ℝ) - 1) * h := by rw [hs0]
  have emax : max shape.start s.shape.start = x0 := by rw [max_eq_right hst, es]
  have emin : min shape.end s.shape.end = x0 + ((s.samples.length : ℝ) - 1) * h := by
    rw [min_eq_right hen, ee]
  have ediv : (min shape.end s.shape.end - max shape.start s.shape.start) / h
      = (s.samples.length : ℝ) - 1 := by rw [emax, emin]; field_simp; ring
  obtain ⟨r, hr⟩ := C44_total s shape h _ _ _ h0 h1 hz (by rw [e0, e1]; linarith)
    (by rw [e0, e1, es]; linarith) (by rw [e0, e1, ez, ee]; linarith) hi hh
    (by rw [emax, emin]; nlinarith)
    (by
      rw [ediv]
      have : (s.samples.length : ℝ) < ((2 ^ 64 : ℕ) : ℝ) := by exact_mod_cast hfit
      push_cast at this; linarith)
  obtain ⟨a1, a2, a3, a4, a5⟩ := C44_resamples s r shape hn hr
  rw [flt_max, emax] at a1
  rw [flt_min, emin] at a2
  rw [hr]
  have hri : r.shape.interval = .uniform h := by rw [a3, hi]
  have hreal := (C37_real r.shape h hri hh.ne').2 _ a4
  have hrl : r.wavelengths.length = s.samples.length := by
    rw [hreal.1, a1, a2]
    have : (x0 + ((s.samples.length : ℝ) - 1) * h - x0) / h = ((s.samples.length - 1 : ℕ) : ℝ) := by
      rw [Nat.cast_sub (by omega)]; push_cast; field_simp; ring
    rw [this, Nat.floor_natCast]; omega
  have hsamples : r.samples = s.samples := by
    have hrl' : r.samples.length = s.samples.length := by
      rw [← hrl]; simp [VSPD.wavelengths]
    apply List.ext_getElem hrl'
    intro k hk hk'
    refine C44_keeps_samples s r shape hn hs hr _ _ (List.getElem_mem hk) (List.getElem_mem hk') ?_
    rw [hu k _ (List.getElem?_eq_getElem hk')]
    have := hreal.2.1 k (by rw [hrl]; omega)
    rw [a1] at this
    simp only [VSPD.wavelengths, List.getElem?_map, List.getElem?_eq_getElem hk, Option.map_some,
      Option.some.injEq] at this
    exact this
  have hshape : r.shape = s.shape := by
    rw [hs0]
    cases hrs : r.shape
    rw [hrs] at a1 a2 hri
    simp only at a1 a2 hri
    rw [a1, a2, hri]
  cases r; cases s
  simp only at hsamples hshape
  rw [hsamples, hshape]

/-- Not vacuous: 0,1,2 to 0..2 step 1. -/
example : (⟨[⟨0, 3⟩, ⟨1, 1⟩, ⟨2, 4⟩], ⟨0, 0 + ((3:ℕ) - 1) * 1, .uniform 1⟩⟩ : VSPD ℝ).interpolate
    (SpdShape.new 0 2 1) = .ok ⟨[⟨0, 3⟩, ⟨1, 1⟩, ⟨2, 4⟩], ⟨0, 0 + ((3:ℕ) - 1) * 1, .uniform 1⟩⟩ := by
  refine C44_same_grid _ _ 0 1 one_pos (by simp) (by norm_num) (fun k p hp => ?_) (by simp) rfl
    (by simp [SpdShape.new]) (by norm_num [SpdShape.new])
  match k, hp with
  | 0, hp | 1, hp | 2, hp => simp at hp; subst hp; norm_num
  | k + 3, hp => simp at hp

/-! ## C45: extrapolate -/

theorem extrapConst_left (s : VSPD ℝ) (f : Sample ℝ) (hf : s.samples.head? = some f) (x : ℝ)
    (hx : x < f.nm) : extrapConst s x = .ok f.v := by
  unfold extrapConst VSPD.first unwrap
  rw [hf]
  show (if Flt.lt x f.nm = true then _ else _) = _
  rw [if_pos (by simpa using hx)]

theorem extrapConst_right (s : VSPD ℝ) (f z : Sample ℝ) (hf : s.samples.head? = some f)
    (hz : s.samples.getLast? = some z) (x : ℝ) (hx : f.nm ≤ x) : extrapConst s x = .ok z.v := by
  unfold extrapConst VSPD.first VSPD.last unwrap
  rw [hf, hz]
  show (if Flt.lt x f.nm = true then _ else _) = _
  rw [if_neg (by simpa using hx)]
  rfl

/-- which interval `extrapolate` uses: its own, or the requested one if its own varies -/
def extrapInterval (s : VSPD ℝ) (shape : SpdShape ℝ) (i : ℝ) : Prop :=
  s.shape.interval = .uniform i ∨ (s.shape.interval = .varying ∧ shape.interval = .uniform i)

theorem extrapolate_eq (fuel : ℕ) (s : VSPD ℝ) (shape : SpdShape ℝ) (i : ℝ)
    (hi : extrapInterval s shape i) :
    s.extrapolate fuel shape = (do
      let left ← pushLoop (fun x => decide (x < s.shape.start)) (extrapConst s) i fuel
        (min s.shape.start shape.start)
      let right ← pushLoop (fun x => decide (x ≤ max s.shape.end shape.end)) (extrapConst s) i fuel
        (s.shape.end + i)
      .ok ⟨left ++ s.samples ++ right, SpdShape.new shape.start shape.end i⟩) := by
  unfold VSPD.extrapolate
  rcases hi with h | ⟨h, h'⟩
  · simp only [h, flt_min, flt_max, flt_lt, flt_le]; rfl
  · simp only [h, h', flt_min, flt_max, flt_lt, flt_le]; rfl

/-- C45 [R]: for a positive interval `i` (the spectrum's own, or the requested one if its own
varies), `extrapolate(shape)` terminates; it keeps all samples contiguously and in order; before them
it puts samples holding the first value at `shape.start + k*i`, for exactly those below the
spectrum's start; after them samples holding the last value at `s.end + (k+1)*i`, for exactly those
up to `shape.end`; it reports the requested range. -/
theorem C45_extrapolate (s : VSPD ℝ) (shape : SpdShape ℝ) (i : ℝ) (f z : Sample ℝ)
    (hf : s.samples.head? = some f) (hz : s.samples.getLast? = some z)
    (hi : extrapInterval s shape i) (hpos : 0 < i)
    (hl : s.shape.start ≤ f.nm) (hr : f.nm ≤ s.shape.end) :
    ∃ (N : ℕ) (L R : List (Sample ℝ)), (∀ fuel, N ≤ fuel → s.extrapolate fuel shape =
        .ok ⟨L ++ s.samples ++ R, ⟨shape.start, shape.end, .uniform i⟩⟩) ∧
      (∀ p ∈ L, p.v = f.v) ∧ (∀ p ∈ R, p.v = z.v) ∧
      (L.map Sample.nm).Pairwise (· < ·) ∧ (R.map Sample.nm).Pairwise (· < ·) ∧
      (∀ x, x ∈ L.map Sample.nm ↔ x < s.shape.start ∧ ∃ k : ℕ, x = shape.start + k * i) ∧
      (∀ x, x ∈ R.map Sample.nm ↔ x ≤ shape.end ∧ ∃ k : ℕ, x = s.shape.end + (k + 1) * i) := by
  -- number of rounds on either side
  set m := ⌈(s.shape.start - shape.start) / i⌉₊ with hm
  set n := ⌊(shape.end - s.shape.end) / i⌋₊ with hnn
  have hleft : ∀ fuel, m ≤ fuel → pushLoop (fun x => decide (x < s.shape.start)) (extrapConst s) i
      fuel (min s.shape.start shape.start) = .ok ((List.range m).map fun k : ℕ =>
        ⟨min s.shape.start shape.start + k * i, f.v⟩) := by
    intro fuel hfuel
    have hk : ∀ k : ℕ, k < m → min s.shape.start shape.start + k * i < s.shape.start := by
      intro k hk
      have h1 : (k:ℝ) < (s.shape.start - shape.start) / i := Nat.lt_ceil.1 hk
      rw [lt_div_iff₀ hpos] at h1
      have h2 := min_le_right s.shape.start shape.start
      linarith
    have hstop : ¬ min s.shape.start shape.start + m * i < s.shape.start := by
      rcases le_total s.shape.start shape.start with h | h
      · rw [min_eq_left h]
        have : (0:ℝ) ≤ m * i := by positivity
        linarith
      · rw [min_eq_right h]
        have := Nat.le_ceil ((s.shape.start - shape.start) / i)
        rw [div_le_iff₀ hpos] at this
        linarith
    refine pushLoop_eq _ _ (fun _ => f.v) i m fuel _ hfuel (fun k h => ?_) ?_ (fun k h => ?_)
    · exact decide_eq_true (hk k h)
    · exact decide_eq_false hstop
    · exact extrapConst_left s f hf _ (lt_of_lt_of_le (hk k h) hl)
  have hright : ∀ fuel, n ≤ fuel → pushLoop (fun x => decide (x ≤ max s.shape.end shape.end))
      (extrapConst s) i fuel (s.shape.end + i) = .ok ((List.range n).map fun k : ℕ =>
        ⟨s.shape.end + i + k * i, z.v⟩) := by
    intro fuel hfuel
    refine pushLoop_eq _ _ (fun _ => z.v) i n fuel _ hfuel (fun k h => ?_) ?_ (fun k h => ?_)
    · apply decide_eq_true
      have h0 : 0 < n := by omega
      have hq : 0 ≤ (shape.end - s.shape.end) / i := by
        by_contra hc
        rw [hnn, Nat.floor_of_nonpos (not_le.1 hc).le] at h0
        omega
      have h1 : ((k + 1 : ℕ) : ℝ) ≤ (shape.end - s.shape.end) / i :=
        (Nat.le_floor_iff hq).1 (by omega)
      rw [le_div_iff₀ hpos] at h1
      push_cast at h1
      refine le_trans ?_ (le_max_right _ _)
      linarith
    · apply decide_eq_false
      have := Nat.lt_floor_add_one ((shape.end - s.shape.end) / i)
      rw [div_lt_iff₀ hpos] at this
      rw [not_le, max_lt_iff]
      have h2 : (0:ℝ) ≤ n * i := by positivity
      constructor <;> linarith
    · refine extrapConst_right s f z hf hz _ ?_
      have h2 : (0:ℝ) ≤ k * i := by positivity
      linarith
  have hpw : ∀ (c : ℝ) (v : ℝ) (q : ℕ), (((List.range q).map fun k : ℕ =>
      (⟨c + k * i, v⟩ : Sample ℝ)).map Sample.nm).Pairwise (· < ·) := by
    intro c v q
    rw [List.map_map, List.pairwise_map]
    refine List.Pairwise.imp ?_ List.pairwise_lt_range
    intro a b hab
    have : (a:ℝ) < b := by exact_mod_cast hab
    simp only [Function.comp]
    nlinarith
  refine ⟨max m n, _, _, fun fuel hfuel => ?_, ?_, ?_, hpw (min s.shape.start shape.start) f.v m,
    hpw (s.shape.end + i) z.v n, fun x => ?_, fun x => ?_⟩
  · rw [extrapolate_eq fuel s shape i hi, hleft fuel (by omega), hright fuel (by omega)]
    rfl
  · intro p hp; obtain ⟨k, -, rfl⟩ := List.mem_map.1 hp; rfl
  · intro p hp; obtain ⟨k, -, rfl⟩ := List.mem_map.1 hp; rfl
  · simp only [List.map_map, List.mem_map, List.mem_range, Function.comp]
    constructor
    · rintro ⟨k, hk, rfl⟩
      have h1 : (k:ℝ) < (s.shape.start - shape.start) / i := Nat.lt_ceil.1 hk
      have h0 : 0 < (s.shape.start - shape.start) / i := lt_of_le_of_lt (Nat.cast_nonneg k) h1
      rw [lt_div_iff₀ hpos] at h0 h1
      rw [min_eq_right (by linarith)]
      exact ⟨by linarith, k, rfl⟩
    · rintro ⟨hx, k, rfl⟩
      have hk0 : (0:ℝ) ≤ k * i := by positivity
      refine ⟨k, Nat.lt_ceil.2 (by rw [lt_div_iff₀ hpos]; linarith), ?_⟩
      rw [min_eq_right (by linarith)]
  · simp only [List.map_map, List.mem_map, List.mem_range, Function.comp]
    constructor
    · rintro ⟨k, hk, rfl⟩
      have hq : 0 ≤ (shape.end - s.shape.end) / i := by
        by_contra hc
        rw [hnn, Nat.floor_of_nonpos (not_le.1 hc).le] at hk
        omega
      have h1 : ((k + 1 : ℕ) : ℝ) ≤ (shape.end - s.shape.end) / i :=
        (Nat.le_floor_iff hq).1 (by omega)
      rw [le_div_iff₀ hpos] at h1
      push_cast at h1
      exact ⟨by linarith, k, by ring⟩
    · rintro ⟨hx, k, rfl⟩
      have h1 : ((k + 1 : ℕ) : ℝ) ≤ (shape.end - s.shape.end) / i := by
        rw [le_div_iff₀ hpos]; push_cast; linarith
      have := Nat.le_floor h1
      exact ⟨k, by omega, by ring⟩

/-- Not vacuous: 10,11 extended to 8..13 step 1. -/
example : ∃ N, ∀ fuel, N ≤ fuel →
    ∃ r, (⟨[⟨10, 3⟩, ⟨11, 1⟩], ⟨10, 11, .uniform 1⟩⟩ : VSPD ℝ).extrapolate fuel
      (SpdShape.new 8 13 1) = .ok r ∧ (⟨8, 3⟩ : Sample ℝ) ∈ r.samples ∧ (⟨13, 1⟩ : Sample ℝ) ∈ r.samples := by
  obtain ⟨N, L, R, h, hL, hR, -, -, mL, mR⟩ := C45_extrapolate
    (⟨[⟨10, 3⟩, ⟨11, 1⟩], ⟨10, 11, .uniform 1⟩⟩ : VSPD ℝ) (SpdShape.new 8 13 1) 1 ⟨10, 3⟩ ⟨11, 1⟩
    rfl rfl (Or.inl rfl) one_pos (by norm_num) (by norm_num)
  refine ⟨N, fun fuel hf => ⟨_, h fuel hf, ?_, ?_⟩⟩
  · obtain ⟨p, hp, e⟩ := List.mem_map.1 ((mL 8).2 ⟨by norm_num, 0, by norm_num [SpdShape.new]⟩)
    have : p = ⟨8, 3⟩ := Sample.ext e (hL p hp)
    rw [← this]; simp [hp]
  · obtain ⟨p, hp, e⟩ := List.mem_map.1 ((mR 13).2 ⟨by norm_num [SpdShape.new], 1, by norm_num⟩)
    have : p = ⟨13, 1⟩ := Sample.ext e (hR p hp)
    rw [← this]; simp [hp]

/-- C45 [R]: for a non-positive interval `extrapolate` never returns, whatever range is requested. -/
theorem C45_diverges (s : VSPD ℝ) (shape : SpdShape ℝ) (i : ℝ) (hne : s.samples ≠ [])
    (hi : extrapInterval s shape i) (hneg : i ≤ 0) (fuel : ℕ) :
    s.extrapolate fuel shape = .error .diverge := by
  have hf : s.samples.head? = some (s.samples.head hne) := List.head?_eq_some_head hne
  have hz : s.samples.getLast? = some (s.samples.getLast hne) := List.getLast?_eq_some_getLast hne
  have he : ∀ y, ∃ v, extrapConst s y = .ok v := by
    intro y
    rcases lt_or_ge y (s.samples.head hne).nm with h | h
    · exact ⟨_, extrapConst_left s _ hf y h⟩
    · exact ⟨_, extrapConst_right s _ _ hf hz y h⟩
  have hki : ∀ k : ℕ, (k:ℝ) * i ≤ 0 := fun k => mul_nonpos_of_nonneg_of_nonpos (Nat.cast_nonneg k) hneg
  have hright : pushLoop (fun x => decide (x ≤ max s.shape.end shape.end)) (extrapConst s) i fuel
      (s.shape.end + i) = .error .diverge := by
    refine pushLoop_diverge _ _ i fuel _ (fun k => decide_eq_true ?_) he
    refine le_trans ?_ (le_max_left _ _)
    linarith [hki k]
  rw [extrapolate_eq fuel s shape i hi]
  rcases lt_or_ge shape.start s.shape.start with h | h
  · rw [pushLoop_diverge _ _ i fuel (min s.shape.start shape.start)
      (fun k => decide_eq_true (by
        have := min_le_right s.shape.start shape.start
        linarith [hki k])) he]
    rfl
  · have := pushLoop_eq (fun x => decide (x < s.shape.start)) (extrapConst s) (fun _ => 0) i 0 fuel
      (min s.shape.start shape.start) (by omega) (by simp) (by simp [min_eq_left h]) (by simp)
    rw [this]
    simp only [bind, Except.bind]
    rw [hright]

/-! ## C46: align -/

/-- C46 [R], partial: if the requested interval is positive, the ranges overlap, and where the
spectrum does not cover the requested range its own start (end) lies on the requested grid, then
`align(shape)` reports exactly `shape` and has exactly the wavelengths of `shape`'s grid; inside the
common range the values are those of the Sprague interpolation, outside they repeat the value at the
end of the common range. Missing: a spectrum whose ends are off the requested grid, where it is false
(`C46_counterexample`). -/
theorem C46_align_partial (s : VSPD ℝ) (shape : SpdShape ℝ) (i : ℝ) (a b z : Sample ℝ)
    (h0 : s.samples[0]? = some a) (h1 : s.samples[1]? = some b)
    (hz : s.samples.getLast? = some z) (hab : a.nm < b.nm)
    (hl : a.nm - 2 * (b.nm - a.nm) ≤ s.shape.start) (hr : s.shape.end < z.nm + 2 * (b.nm - a.nm))
    (hi : shape.interval = .uniform i) (hpos : 0 < i)
    (hov : max shape.start s.shape.start ≤ min shape.end s.shape.end)
    (hfit : (shape.end - shape.start) / i < 2 ^ 64)
    (hgl : s.shape.start ≤ shape.start ∨ ∃ j : ℕ, s.shape.start = shape.start + j * i)
    (hgr : shape.end ≤ s.shape.end ∨ ∃ j : ℕ, s.shape.end = shape.start + j * i) :
    ∃ N, ∃ r : VSPD ℝ, (∀ fuel, N ≤ fuel → s.align fuel shape = .ok r) ∧ r.shape = shape ∧
      shape.wavelengths = .ok r.wavelengths ∧
      (∀ p ∈ r.samples, s.shape.start ≤ p.nm → p.nm ≤ s.shape.end → spragueEval s p.nm = .ok p.v) ∧
      (∀ p ∈ r.samples, p.nm < s.shape.start → spragueEval s s.shape.start = .ok p.v) ∧
      (∀ p ∈ r.samples, s.shape.end < p.nm → spragueEval s s.shape.end = .ok p.v) := by
  have hn : 2 ≤ s.samples.length := by
    have := (List.getElem?_eq_some_iff.1 h1).1; omega
  have hmm : shape.start ≤ max shape.start s.shape.start := le_max_left _ _
  have hme : min shape.end s.shape.end ≤ shape.end := min_le_left _ _
  obtain ⟨t, ht⟩ := C44_total s shape i a b z h0 h1 hz hab hl hr hi hpos hov (by
    refine lt_of_le_of_lt ?_ hfit
    rw [div_le_div_iff_of_pos_right hpos]; linarith)
  obtain ⟨t1, t2, t3, t4, t5⟩ := C44_resamples s t shape hn ht
  rw [flt_max] at t1
  rw [flt_min] at t2
  have hti : t.shape.interval = .uniform i := by rw [t3, hi]
  obtain ⟨tlen, tnth, tmem⟩ := (C37_real t.shape i hti hpos.ne').2 _ t4
  have hov' : t.shape.start ≤ t.shape.end := by rw [t1, t2]; exact hov
  obtain ⟨tsort, tmem⟩ := tmem hpos hov'
  have twl : t.wavelengths.length = t.samples.length := by simp [VSPD.wavelengths]
  have tpos : 0 < t.samples.length := by omega
  have tne : t.samples ≠ [] := List.length_pos_iff.1 tpos
  -- first sample of the interpolated spectrum
  have hf : t.samples.head? = some (t.samples.head tne) := List.head?_eq_some_head tne
  have hzt : t.samples.getLast? = some (t.samples.getLast tne) := List.getLast?_eq_some_getLast tne
  have hfnm : (t.samples.head tne).nm = t.shape.start := by
    have := tnth 0 (by omega)
    simp only [VSPD.wavelengths, List.getElem?_map, Nat.cast_zero, zero_mul, add_zero] at this
    rw [← List.head?_eq_getElem?, hf] at this
    simpa using this
  obtain ⟨N, L, R, hex, hLv, hRv, hLs, hRs, hLm, hRm⟩ := C45_extrapolate t shape i _ _ hf hzt
    (Or.inl hti) hpos hfnm.ge (by rw [hfnm]; exact hov')
  have hshape : (⟨shape.start, shape.end, .uniform i⟩ : SpdShape ℝ) = shape := by
    rw [← hi]
  -- the last sample of the interpolated spectrum, when the right side needs extending
  have hlast : t.shape.end < shape.end → (t.samples.getLast tne).nm = t.shape.end ∧
      t.shape.end = s.shape.end ∧ ∃ j : ℕ, s.shape.end = shape.start + j * i := by
    intro hlt
    rw [t2] at hlt
    have hse : s.shape.end < shape.end := by
      rcases min_lt_iff.1 hlt with h | h
      · exact absurd h (lt_irrefl _)
      · exact h
    have hte : t.shape.end = s.shape.end := by rw [t2, min_eq_right hse.le]
    have hj := hgr.resolve_left (not_le.2 hse)
    refine ⟨?_, hte, hj⟩
    obtain ⟨j, hj⟩ := hj
    -- the end is on the grid of the narrowed shape
    have hon : t.shape.end ∈ t.wavelengths := by
      rw [tmem]
      refine ⟨le_rfl, ?_⟩
      rw [hte, t1]
      rcases le_total s.shape.start shape.start with h | h
      · rw [max_eq_left h]; exact ⟨j, hj⟩
      · rw [max_eq_right h]
        rcases hgl with h' | ⟨q, hq⟩
        · exact ⟨j, by rw [le_antisymm h' h]; exact hj⟩
        · refine ⟨j - q, ?_⟩
          have : q ≤ j := by
            have hle : s.shape.start ≤ s.shape.end := by
              rw [t1, t2, max_eq_right h, min_eq_right hse.le] at hov'; exact hov'
            rw [hq, hj] at hle
            have : (q:ℝ) ≤ j := by
              by_contra hc
              have : (j:ℝ) * i < q * i := by
                apply mul_lt_mul_of_pos_right (not_le.1 hc) hpos
              linarith
            exact_mod_cast this
          rw [Nat.cast_sub this, hq, hj]; ring
    have hle : (t.samples.getLast tne).nm ≤ t.shape.end :=
      ((tmem _).1 (List.mem_map.2 ⟨_, List.getLast_mem tne, rfl⟩)).1
    obtain ⟨k, hk, hkv⟩ := List.mem_iff_getElem.1 hon
    have hl' : (t.samples.getLast tne).nm = t.wavelengths[t.wavelengths.length - 1]'(by omega) := by
      simp [VSPD.wavelengths, List.getLast_eq_getElem]
    refine le_antisymm hle ?_
    rw [hl', ← hkv]
    rcases Nat.lt_or_ge k (t.wavelengths.length - 1) with h | h
    · exact (List.pairwise_iff_getElem.1 tsort k _ _ _ h).le
    · have : k = t.wavelengths.length - 1 := by omega
      subst this; exact le_rfl
  refine ⟨N, ⟨L ++ t.samples ++ R, ⟨shape.start, shape.end, .uniform i⟩⟩, fun fuel hfuel => ?_, hshape, ?_, ?_, ?_, ?_⟩
  · unfold VSPD.align
    rw [ht]
    exact hex fuel hfuel
  · -- wavelengths: two strictly increasing lists with the same members
    have hreal := C37_real shape i hi hpos.ne'
    have hse : shape.start ≤ shape.end := by linarith
    obtain ⟨ws, hw⟩ := hreal.1.2 ⟨by
      have : 0 ≤ (shape.end - shape.start) / i := div_nonneg (by linarith) hpos.le
      linarith, hfit⟩
    obtain ⟨-, -, hm⟩ := hreal.2 ws hw
    obtain ⟨wsort, wmem⟩ := hm hpos hse
    rw [hw]
    congr 1
    have hLt : ∀ x ∈ L.map Sample.nm, x < t.shape.start := fun x hx => ((hLm x).1 hx).1
    have htb : ∀ x ∈ t.wavelengths, t.shape.start ≤ x ∧ x ≤ t.shape.end := by
      intro x hx
      obtain ⟨h1, k, rfl⟩ := (tmem x).1 hx
      have : (0:ℝ) ≤ k * i := by positivity
      exact ⟨by linarith, h1⟩
    have hRt : ∀ x ∈ R.map Sample.nm, t.shape.end < x := by
      intro x hx
      obtain ⟨h1, k, rfl⟩ := (hRm x).1 hx
      have : (0:ℝ) < ((k:ℝ) + 1) * i := by positivity
      linarith
    have hrs : (L.map Sample.nm ++ t.wavelengths ++ R.map Sample.nm).Pairwise (· < ·) := by
      rw [List.pairwise_append, List.pairwise_append]
      refine ⟨⟨hLs, tsort, fun x hx y hy => ?_⟩, hRs, fun x hx y hy => ?_⟩
      · linarith [hLt x hx, (htb y hy).1]
      · have := hRt y hy
        rcases List.mem_append.1 hx with hx | hx
        · linarith [hLt x hx]
        · linarith [(htb x hx).2]
    have hmem : ∀ x, x ∈ ws ↔ x ∈ L.map Sample.nm ++ t.wavelengths ++ R.map Sample.nm := by
      intro x
      rw [wmem, List.mem_append, List.mem_append, hLm, tmem, hRm]
      constructor
      · rintro ⟨hxe, k, rfl⟩
        by_cases hc : shape.start + k * i < t.shape.start
        · exact Or.inl (Or.inl ⟨hc, k, rfl⟩)
        · push Not at hc
          by_cases hc2 : shape.start + k * i ≤ t.shape.end
          · refine Or.inl (Or.inr ⟨hc2, ?_⟩)
            -- on the narrowed grid
            rw [t1] at hc ⊢
            rcases le_total s.shape.start shape.start with h | h
            · rw [max_eq_left h]; exact ⟨k, rfl⟩
            · rw [max_eq_right h] at hc ⊢
              rcases hgl with h' | ⟨q, hq⟩
              · exact ⟨k, by rw [le_antisymm h' h]⟩
              · refine ⟨k - q, ?_⟩
                have hqk : q ≤ k := by
                  have : (q:ℝ) ≤ k := by
                    by_contra hcc
                    have : (k:ℝ) * i < q * i := mul_lt_mul_of_pos_right (not_le.1 hcc) hpos
                    linarith
                  exact_mod_cast this
                rw [Nat.cast_sub hqk, hq]; ring
          · push Not at hc2
            obtain ⟨-, hte, j, hj⟩ := hlast (lt_of_lt_of_le hc2 hxe)
            refine Or.inr ⟨hxe, k - j - 1, ?_⟩
            rw [hte, hj] at hc2 ⊢
            have hjk : j < k := by
              have : (j:ℝ) < k := by
                by_contra hcc
                have : (k:ℝ) * i ≤ j * i := mul_le_mul_of_nonneg_right (not_lt.1 hcc) hpos.le
                linarith
              exact_mod_cast this
            rw [Nat.cast_sub (by omega), Nat.cast_sub (by omega)]; push_cast; ring
      · rintro ((⟨hx, k, rfl⟩ | ⟨hx, k, rfl⟩) | ⟨hx, k, rfl⟩)
        · exact ⟨by linarith, k, rfl⟩
        · refine ⟨by linarith, ?_⟩
          rw [t1]
          rcases le_total s.shape.start shape.start with h | h
          · rw [max_eq_left h]; exact ⟨k, rfl⟩
          · rw [max_eq_right h]
            rcases hgl with h' | ⟨q, hq⟩
            · exact ⟨k, by rw [le_antisymm h' h]⟩
            · exact ⟨q + k, by rw [hq]; push_cast; ring⟩
        · refine ⟨hx, ?_⟩
          have hlt : t.shape.end < shape.end := by
            have : (0:ℝ) < ((k:ℝ) + 1) * i := by positivity
            linarith
          obtain ⟨-, hte, j, hj⟩ := hlast hlt
          exact ⟨j + (k + 1), by rw [hte, hj]; push_cast; ring⟩
    have hr' : (⟨L ++ t.samples ++ R, ⟨shape.start, shape.end, .uniform i⟩⟩ : VSPD ℝ).wavelengths
        = L.map Sample.nm ++ t.wavelengths ++ R.map Sample.nm := by
      simp [VSPD.wavelengths]
    rw [hr']
    exact List.Perm.eq_of_pairwise (fun a b _ _ h1 h2 => absurd h1 (lt_asymm h2)) wsort hrs
      ((List.perm_ext_iff_of_nodup (wsort.imp ne_of_lt) (hrs.imp ne_of_lt)).2 hmem)
  · intro p hp hps hpe
    simp only [List.mem_append] at hp
    rcases hp with (hp | hp) | hp
    · obtain ⟨hlt, k, hk⟩ := (hLm p.nm).1 (List.mem_map.2 ⟨p, hp, rfl⟩)
      have hk0 : (0:ℝ) ≤ k * i := by positivity
      rw [t1] at hlt
      rcases lt_max_iff.1 hlt with h | h <;> linarith
    · exact t5 p hp
    · obtain ⟨hle, k, hk⟩ := (hRm p.nm).1 (List.mem_map.2 ⟨p, hp, rfl⟩)
      have hk0 : (0:ℝ) < ((k:ℝ) + 1) * i := by positivity
      obtain ⟨-, hte, -⟩ := hlast (by linarith)
      rw [hte] at hk
      linarith
  · intro p hp hlt
    simp only [List.mem_append] at hp
    rcases hp with (hp | hp) | hp
    · obtain ⟨hlt', k, hk⟩ := (hLm p.nm).1 (List.mem_map.2 ⟨p, hp, rfl⟩)
      have hk0 : (0:ℝ) ≤ k * i := by positivity
      have hst : shape.start ≤ s.shape.start := by linarith
      have hts : t.shape.start = s.shape.start := by rw [t1, max_eq_right hst]
      rw [hLv p hp, ← hts, ← hfnm]
      exact t5 _ (List.head_mem tne)
    · obtain ⟨hh, k, hk⟩ := (tmem p.nm).1 (List.mem_map.2 ⟨p, hp, rfl⟩)
      have hk0 : (0:ℝ) ≤ k * i := by positivity
      have : s.shape.start ≤ t.shape.start := by rw [t1]; exact le_max_right _ _
      linarith
    · obtain ⟨hle, k, hk⟩ := (hRm p.nm).1 (List.mem_map.2 ⟨p, hp, rfl⟩)
      have hk0 : (0:ℝ) < ((k:ℝ) + 1) * i := by positivity
      have : s.shape.start ≤ t.shape.start := by rw [t1]; exact le_max_right _ _
      linarith
  · intro p hp hlt
    simp only [List.mem_append] at hp
    have hte' : t.shape.end ≤ s.shape.end := by rw [t2]; exact min_le_right _ _
    rcases hp with (hp | hp) | hp
    · obtain ⟨hlt', k, hk⟩ := (hLm p.nm).1 (List.mem_map.2 ⟨p, hp, rfl⟩)
      linarith
    · obtain ⟨hh, -⟩ := (tmem p.nm).1 (List.mem_map.2 ⟨p, hp, rfl⟩)
      linarith
    · obtain ⟨hle, k, hk⟩ := (hRm p.nm).1 (List.mem_map.2 ⟨p, hp, rfl⟩)
      have hk0 : (0:ℝ) < ((k:ℝ) + 1) * i := by positivity
      obtain ⟨hl1, hte, -⟩ := hlast (by linarith)
      rw [hRv p hp, ← hte, ← hl1]
      exact t5 _ (List.getLast_mem tne)

/-- Not vacuous: 10..12 step 1 aligned to 8..13 step 1. -/
example : ∃ N, ∃ r : VSPD ℝ, (∀ fuel, N ≤ fuel →
    (⟨[⟨10, 3⟩, ⟨11, 1⟩, ⟨12, 5⟩], ⟨10, 12, .uniform 1⟩⟩ : VSPD ℝ).align fuel
      (SpdShape.new 8 13 1) = .ok r) ∧ (SpdShape.new (8:ℝ) 13 1).wavelengths = .ok r.wavelengths := by
  obtain ⟨N, r, h1, -, h2, -⟩ := C46_align_partial
    (⟨[⟨10, 3⟩, ⟨11, 1⟩, ⟨12, 5⟩], ⟨10, 12, .uniform 1⟩⟩ : VSPD ℝ) (SpdShape.new 8 13 1) 1
    ⟨10, 3⟩ ⟨11, 1⟩ ⟨12, 5⟩ rfl rfl rfl (by norm_num) (by norm_num) (by norm_num) rfl one_pos
    (by norm_num [SpdShape.new]) (by norm_num [SpdShape.new])
    (Or.inr ⟨2, by norm_num [SpdShape.new]⟩) (Or.inr ⟨4, by norm_num [SpdShape.new]⟩)
  exact ⟨N, r, h1, h2⟩

/-- C46 [R], counterexample: a spectrum at 0.5, 1.5 aligned to 0..2 step 1 has the wavelengths
0, 0.5, 1.5 instead of 0, 1, 2. -/
theorem C46_counterexample : ∃ N, ∀ fuel, N ≤ fuel → ∃ r : VSPD ℝ,
    (⟨[⟨0.5, 1⟩, ⟨1.5, 1⟩], ⟨0.5, 1.5, .uniform 1⟩⟩ : VSPD ℝ).align fuel (SpdShape.new 0 2 1)
      = .ok r ∧ r.shape = SpdShape.new 0 2 1 ∧ r.wavelengths = [0, 0.5, 1.5] := by
  set s : VSPD ℝ := ⟨[⟨0.5, 1⟩, ⟨1.5, 1⟩], ⟨0.5, 1.5, .uniform 1⟩⟩ with hs
  have hint : s.interpolate (SpdShape.new 0 2 1) = .ok s := by
    refine C44_same_grid s _ 0.5 1 one_pos (by simp [hs]) (by simp [hs]) (fun k p hp => ?_) ?_ rfl
      (by norm_num [hs, SpdShape.new]) (by norm_num [hs, SpdShape.new])
    · match k, hp with
      | 0, hp => simp [hs] at hp; subst hp; norm_num
      | 1, hp => simp [hs] at hp; subst hp; norm_num
      | k + 2, hp => simp [hs] at hp
    · norm_num [hs]
  have c1 : ⌈((0.5:ℝ) - 0) / 1⌉₊ = 1 := by
    rw [Nat.ceil_eq_iff (by norm_num)]; norm_num
  refine ⟨1, fun fuel hf => ?_⟩
  have hL : pushLoop (fun x => decide (x < s.shape.start)) (extrapConst s) 1 fuel
      (min s.shape.start (0:ℝ)) = .ok [⟨0, 1⟩] := by
    have h00 : min s.shape.start (0:ℝ) = 0 := by norm_num [hs]
    rw [h00]
    have := pushLoop_eq (fun x => decide (x < s.shape.start)) (extrapConst s) (fun _ => 1) 1 1 fuel 0
      hf (fun k hk => by
        have : k = 0 := by omega
        subst this; norm_num [hs]) (by norm_num [hs]) (fun k hk => by
        have : k = 0 := by omega
        subst this
        exact extrapConst_left s ⟨0.5, 1⟩ rfl _ (by norm_num))
    rw [this]
    simp
  have hR : pushLoop (fun x => decide (x ≤ max s.shape.end (2:ℝ))) (extrapConst s) 1 fuel
      (s.shape.end + 1) = .ok [] := by
    have := pushLoop_eq (fun x => decide (x ≤ max s.shape.end (2:ℝ))) (extrapConst s) (fun _ => 1) 1 0
      fuel (s.shape.end + 1) (by omega) (by simp) (by norm_num [hs]) (by simp)
    rw [this]; rfl
  refine ⟨⟨[⟨0, 1⟩] ++ s.samples ++ [], SpdShape.new 0 2 1⟩, ?_, rfl, ?_⟩
  · unfold VSPD.align
    rw [hint]
    show s.extrapolate fuel (SpdShape.new 0 2 1) = _
    rw [extrapolate_eq fuel s _ 1 (Or.inl rfl)]
    show (pushLoop _ _ _ _ (min s.shape.start (0:ℝ)) >>= fun left => _) = _
    rw [hL]
    show (pushLoop (fun x => decide (x ≤ max s.shape.end (2:ℝ))) _ _ _ _ >>= fun right => _) = _
    rw [hR]
    rfl
  · simp [VSPD.wavelengths, hs]

end CS

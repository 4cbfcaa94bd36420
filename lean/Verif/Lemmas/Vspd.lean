import Verif.Model.Vspd
import Verif.Num.Real
import Verif.Lemmas.Planes

/-! # Lemmas about spectra: iterators, loops, sums -/

namespace CS

section
variable {T : Type} [Add T] [Sub T] [Mul T] [Div T] [Neg T] [Flt T]

omit [Sub T] [Div T] [Neg T] in
theorem SpdShapeIterator.drain_eq (fuel : ℕ) (it : SpdShapeIterator T) :
    it.drain fuel = (List.range' it.current (min fuel (it.end - it.current))).map
      fun k => it.start + Flt.ofNat k * it.interval := by
  induction fuel generalizing it with
  | zero => simp [SpdShapeIterator.drain]
  | succ n ih =>
    unfold SpdShapeIterator.drain SpdShapeIterator.next
    by_cases h : it.current + 1 ≤ it.end
    · simp only [h, if_true]
      rw [ih]
      have e : min (n + 1) (it.end - it.current) = min n (it.end - (it.current + 1)) + 1 := by omega
      rw [e, List.range'_succ]
      simp
    · simp only [h, if_false]
      have e : it.end - it.current = 0 := by omega
      simp [e]

omit [Neg T] in
theorem wavelengths_eq {s : SpdShape T} {i : T} {n : ℕ} (hi : s.interval = .uniform i)
    (hn : Flt.toUsize ((s.end - s.start) / i) = some n) :
    s.wavelengths = .ok ((List.range (n + 1)).map fun k => s.start + Flt.ofNat k * i) := by
  unfold SpdShape.wavelengths SpdShape.iter
  rw [hi]
  simp only [hn]
  show Except.ok (SpdShapeIterator.toList _) = _
  unfold SpdShapeIterator.toList
  rw [SpdShapeIterator.drain_eq]
  simp [List.range_eq_range']

omit [Sub T] [Div T] [Neg T] in
theorem FloatRange.drain_eq (fuel : ℕ) (r : FloatRange T) :
    r.drain fuel = (List.range' r.current (min fuel (r.steps - r.current))).map
      fun k => Flt.ofNat k * r.delta + r.start := by
  induction fuel generalizing r with
  | zero => simp [FloatRange.drain]
  | succ n ih =>
    unfold FloatRange.drain FloatRange.next
    by_cases h : r.current < r.steps
    · simp only [h, if_true]
      rw [ih]
      have e : min (n + 1) (r.steps - r.current) = min n (r.steps - (r.current + 1)) + 1 := by omega
      rw [e, List.range'_succ]
      simp
    · simp only [h, if_false]
      have e : r.steps - r.current = 0 := by omega
      simp [e]

/-- the gap before sample `i` -/
def gap (samples : List (Sample T)) (i : ℕ) (d : T) : T :=
  ((samples.map Sample.nm).getD i d) - ((samples.map Sample.nm).getD (i - 1) d)

omit [Add T] [Mul T] [Div T] [Neg T] in
theorem intervalLoop_eq (assumed : T) (samples : List (Sample T)) (d : T) (L : List ℕ)
    (hL : ∀ i ∈ L, i < samples.length) :
    intervalLoop assumed samples L = .ok (if ∀ i ∈ L,
      Flt.approxEq (gap samples i d) assumed = true then .uniform assumed else .varying) := by
  induction L with
  | nil => simp [intervalLoop]
  | cons i L ih =>
    have hi := hL i (by simp)
    have hi1 : i - 1 < samples.length := by omega
    unfold intervalLoop
    have e1 : idx samples i = .ok samples[i] := by simp [idx, List.getElem?_eq_getElem hi]
    have e2 : idx samples (i - 1) = .ok samples[i - 1] := by
      simp [idx, List.getElem?_eq_getElem hi1]
    rw [e1, e2]
    have hg : gap samples i d = samples[i].nm - samples[i - 1].nm := by
      simp [gap, List.getD, List.getElem?_eq_getElem, hi, hi1]
    show (if (!Flt.approxEq (samples[i].nm - samples[i - 1].nm) assumed) = true then _ else _) = _
    rw [← hg]
    by_cases ha : Flt.approxEq (gap samples i d) assumed = true
    · rw [ih (fun j hj => hL j (List.mem_cons_of_mem _ hj))]
      simp [ha]
    · simp [ha]

end

/-! ### sums over ℝ -/

theorem foldl_add_eq (l : List ℝ) (a : ℝ) : l.foldl (· + ·) a = a + l.sum := by
  induction l generalizing a with
  | nil => simp
  | cons b l ih => simp [ih]; ring

theorem fsum_eq (l : List ℝ) : fsum l = l.sum := by
  unfold fsum
  rw [foldl_add_eq]
  simp [Flt.zero]

theorem dotSum_eq (a b : List ℝ) : dotSum a b = (List.zipWith (· * ·) a b).sum := fsum_eq _

/-! ### Locating a point in an increasing list -/

theorem findIdx?_sorted {α : Type} (g : α → ℝ) (l : List α) (hs : (l.map g).Pairwise (· ≤ ·))
    (x : ℝ) (i : ℕ) (hi : i + 1 < l.length) (h1 : g l[i] ≤ x) (h2 : x < g l[i + 1]) :
    l.findIdx? (fun t => decide (x < g t)) = some (i + 1) := by
  rw [List.findIdx?_eq_some_iff_getElem]
  refine ⟨hi, by simpa using h2, fun j hj => ?_⟩
  have hle : g l[j] ≤ g l[i] := by
    rcases Nat.lt_or_ge j i with h | h
    · have := List.pairwise_iff_getElem.1 hs j i (by simp; omega) (by simp; omega) h
      simpa using this
    · have : j = i := by omega
      subst this; exact le_rfl
  simpa using hle.trans h1

theorem exists_bracket {α : Type} (g : α → ℝ) (l : List α) (x : ℝ) (f z : α)
    (hf : l.head? = some f) (hz : l.getLast? = some z) (h1 : g f ≤ x) (h2 : x < g z) :
    ∃ (i : ℕ) (hi : i + 1 < l.length), g l[i] ≤ x ∧ x < g l[i + 1] := by
  have hne : l ≠ [] := by rintro rfl; simp at hf
  have hlen : 0 < l.length := List.length_pos_iff.2 hne
  have hz' : g (l[l.length - 1]'(by omega)) = g z := by
    rw [List.getLast?_eq_getElem?, List.getElem?_eq_getElem (by omega)] at hz
    rw [Option.some.inj hz]
  have hf' : g (l[0]'hlen) = g f := by
    rw [List.head?_eq_getElem?, List.getElem?_eq_getElem hlen] at hf
    rw [Option.some.inj hf]
  classical
  have hex : ∃ k, ∃ hk : k < l.length, x < g l[k] := ⟨l.length - 1, by omega, by rw [hz']; exact h2⟩
  obtain ⟨hk, hlt⟩ := Nat.find_spec hex
  set k := Nat.find hex with hkdef
  have hk0 : k ≠ 0 := by
    intro h0
    have : g (l[k]'hk) = g f := by rw [← hf']; congr 2
    linarith
  have hmin := Nat.find_min hex (m := k - 1) (by omega)
  refine ⟨k - 1, by omega, ?_, ?_⟩
  · by_contra hc
    exact hmin ⟨by omega, not_le.1 hc⟩
  · have : g (l[k - 1 + 1]'(by omega)) = g (l[k]'hk) := by congr 2; omega
    rw [this]; exact hlt

end CS

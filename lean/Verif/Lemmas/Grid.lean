import Verif.Props.Vspd
import Mathlib.Data.List.GetD

/-!
# Spectra given by tables on an even grid
-/

namespace CS

/-- the samples `vals` at `lo`, `lo + i`, `lo + 2i`, ... -/
def gridSamples (lo i : ℝ) (vals : List ℝ) : List (Sample ℝ) :=
  (List.range vals.length).map fun k : ℕ => ⟨lo + k * i, vals.getD k 0⟩

theorem gridSamples_length (lo i : ℝ) (vals : List ℝ) : (gridSamples lo i vals).length = vals.length := by
  simp [gridSamples]

theorem gridSamples_get (lo i : ℝ) (vals : List ℝ) (k : ℕ) (hk : k < vals.length) :
    (gridSamples lo i vals)[k]? = some ⟨lo + k * i, vals.getD k 0⟩ := by
  simp [gridSamples, hk]

/-- `from_values` on a uniform shape -/
theorem fromValues_grid (lo hi i : ℝ) (vals : List ℝ) (h2 : 2 ≤ vals.length) (hmax : vals.length < 2 ^ 64)
    (hi0 : i ≠ 0) (hn : ⌊(hi - lo) / i⌋₊ + 1 = vals.length) :
    VSPD.fromValues (SpdShape.new lo hi i) vals = .ok ⟨gridSamples lo i vals, SpdShape.new lo hi i⟩ := by
  obtain ⟨hex, hall⟩ := C39_from_values (SpdShape.new lo hi i) vals hmax
  obtain ⟨s, hs⟩ := hex.2 ⟨h2, i, rfl, hn⟩
  obtain ⟨hsh, hv, hw⟩ := hall s hs
  obtain ⟨hl, hnth, -⟩ := (C37_real (SpdShape.new lo hi i) i rfl hi0).2 _ hw
  rw [hs]
  congr 1
  cases s with
  | mk samples shape =>
    simp only at hsh
    subst hsh
    congr 1
    have hlen : samples.length = vals.length := by rw [← hv]; simp [VSPD.values]
    apply List.ext_getElem
    · rw [gridSamples_length, hlen]
    · intro k hk hk'
      have hk2 : k < vals.length := by omega
      have h1 := hnth k (by simpa [VSPD.wavelengths] using hk)
      simp only [VSPD.wavelengths, List.getElem?_map, List.getElem?_eq_getElem hk, Option.map_some,
        Option.some.injEq] at h1
      have h3 := gridSamples_get lo i vals k hk2
      rw [List.getElem?_eq_getElem hk', Option.some.injEq] at h3
      rw [h3]
      have h4 : samples[k].v = vals.getD k 0 := by
        rw [List.getD_eq_getElem _ _ hk2]
        subst hv
        simp [VSPD.values]
      rw [← h4, ← show samples[k].nm = lo + k * i from h1]

/-- `VSPD::new` on evenly spaced samples -/
theorem new_grid (lo i : ℝ) (vals : List ℝ) (h2 : 2 ≤ vals.length) (l : List (Sample ℝ))
    (hl : l = gridSamples lo i vals) :
    VSPD.new l = .ok ⟨l, SpdShape.new lo (lo + ((vals.length - 1 : ℕ) : ℝ) * i) i⟩ := by
  have hlen : l.length = vals.length := by rw [hl, gridSamples_length]
  have hg : ∀ k, k < vals.length → l[k]? = some ⟨lo + k * i, vals.getD k 0⟩ := by
    rw [hl]; exact gridSamples_get lo i vals
  clear hl
  match l, hlen, hg with
  | [], hlen, _ => simp at hlen; omega
  | [_], hlen, _ => simp at hlen; omega
  | a :: b :: rest, hlen, hg =>
    have hz : (a :: b :: rest).getLast? = some ⟨lo + (vals.length - 1 : ℕ) * i, vals.getD (vals.length - 1) 0⟩ := by
      rw [List.getLast?_eq_getElem?, hlen]
      exact hg _ (by omega)
    have ha : a = ⟨lo + (0:ℕ) * i, vals.getD 0 0⟩ := by simpa using hg 0 (by omega)
    have hb : b = ⟨lo + (1:ℕ) * i, vals.getD 1 0⟩ := by simpa using hg 1 (by omega)
    obtain ⟨iv, e, hiv⟩ := (C38_exact (a :: b :: rest)).2 a b rest _ rfl hz
    rw [e]
    have hd : b.nm - a.nm = i := by rw [ha, hb]; simp
    have hgap : ∀ (k : ℕ) (p q : Sample ℝ), k + 2 < (a :: b :: rest).length →
        (a :: b :: rest)[k]? = some p → (a :: b :: rest)[k + 1]? = some q →
        Flt.approxEq (q.nm - p.nm) (b.nm - a.nm) = true := by
      intro k p q hk hp hq
      rw [hg k (by omega)] at hp
      rw [hg (k + 1) (by omega)] at hq
      cases hp; cases hq
      rw [hd, flt_approxEq]
      have : lo + ((k + 1 : ℕ) : ℝ) * i - (lo + k * i) - i = 0 := by push_cast; ring
      rw [this]
      norm_num
    have hiv' : iv = .uniform i := by
      rcases hiv with ⟨-, h⟩ | ⟨⟨k, p, q, hk, hp, hq, h⟩, -⟩
      · rw [h, hd]
      · rw [hgap k p q hk hp hq] at h; cases h
    rw [hiv', ha]
    simp [SpdShape.new]

end CS

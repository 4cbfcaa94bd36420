import Verif.Lemmas.TableEval

/-!
# The white points of the shipped illuminants, as rational numbers
-/

namespace CS

/-- the shipped D-series illuminants, with the chromaticity constants `illuminant::xy` gives for them -/
def dSeriesQ : List (List (ℚ × ℚ) × ℚ × ℚ) :=
  [(Spectra.d50, 0.34570, 0.35850), (Spectra.d55, 0.33243, 0.34744),
   (Spectra.d60, 0.321626242047397, 0.337736995955436), (Spectra.d65, 0.31270, 0.32900)]

/-- sum of illuminant times colour-matching function at 360, 360 + m, ... -/
def whiteQ (t c : List (ℚ × ℚ)) (m n : ℕ) : ℚ :=
  ((List.range n).map fun k => dQ (t.map Prod.snd) (k * m) * (c.map Prod.snd).getD (k * m) 0).sum

theorem dSeries_grid : ∀ e ∈ dSeriesQ, OnGrid e.1 300 5 e.1.length ∧ 97 ≤ e.1.length := by decide +kernel

theorem bars_grid : OnGrid Spectra.xBar 360 1 471 ∧ OnGrid Spectra.yBar 360 1 471 ∧
    OnGrid Spectra.zBar 360 1 471 := by decide +kernel

theorem dSeries_pos : ∀ e ∈ dSeriesQ, ∀ k ∈ List.range 421,
    0 < dQ (e.1.map Prod.snd) k * (Spectra.yBar.map Prod.snd).getD k 0 := by decide +kernel

/-- the chromaticity of `(X, Y, Z)` is `(a, b)` within the tolerances of C71 -/
def nearQ (X Y Z a b : ℚ) : Bool :=
  decide (0 < Y) && decide (0 < X + Y + Z) && decide (-0.00004 ≤ X / (X + Y + Z) - a) &&
    decide (X / (X + Y + Z) - a ≤ 0.00004) && decide (-0.00012 ≤ Y / (X + Y + Z) - b) &&
    decide (Y / (X + Y + Z) - b ≤ 0.00012)

theorem dSeries_near : (dSeriesQ.all fun e => [(1, 421), (5, 85)].all fun mn =>
    nearQ (whiteQ e.1 Spectra.xBar mn.1 mn.2) (whiteQ e.1 Spectra.yBar mn.1 mn.2)
      (whiteQ e.1 Spectra.zBar mn.1 mn.2) e.2.1 e.2.2) = true := by decide +kernel

theorem dSeries_white (e : List (ℚ × ℚ) × ℚ × ℚ) (he : e ∈ dSeriesQ) (mn : ℕ × ℕ)
    (hmn : mn ∈ [(1, 421), (5, 85)]) (X Y Z : ℚ) (hX : X = whiteQ e.1 Spectra.xBar mn.1 mn.2)
    (hY : Y = whiteQ e.1 Spectra.yBar mn.1 mn.2) (hZ : Z = whiteQ e.1 Spectra.zBar mn.1 mn.2) :
    0 < Y ∧ 0 < X + Y + Z ∧
      (-0.00004 ≤ X / (X + Y + Z) - e.2.1 ∧ X / (X + Y + Z) - e.2.1 ≤ 0.00004) ∧
      -0.00012 ≤ Y / (X + Y + Z) - e.2.2 ∧ Y / (X + Y + Z) - e.2.2 ≤ 0.00012 := by
  have h := List.all_eq_true.1 (List.all_eq_true.1 dSeries_near e he) mn hmn
  rw [← hX, ← hY, ← hZ] at h
  simp only [nearQ, Bool.and_eq_true, decide_eq_true_eq] at h
  tauto

end CS

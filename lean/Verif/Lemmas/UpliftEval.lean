import Verif.Lemmas.WhiteEval
import Verif.Model.Tables

/-!
# The uplifting basis seen under D65, as rational numbers
-/

namespace CS

/-- sum of basis spectrum, D65 and colour-matching function at 360, 365, ..., 780 nm; the basis starts at
380 nm and is continued with its first value -/
def upQ (b : List ℚ) (c : List (ℚ × ℚ)) : ℚ :=
  ((List.range 85).map fun k => b.getD (k - 4) 0 * dQ (Spectra.d65.map Prod.snd) (k * 5) *
    (c.map Prod.snd).getD (k * 5) 0).sum

/-- a row of the XYZ to sRGB matrix applied to the colour of a basis spectrum -/
def upRow (m0 m1 m2 : ℚ) (b : List ℚ) : ℚ :=
  (m0 * upQ b Spectra.xBar + m1 * upQ b Spectra.yBar + m2 * upQ b Spectra.zBar) /
    whiteQ Spectra.d65 Spectra.yBar 5 85

/-- `q` is within `e` of `d` -/
def withinQ (q d e : ℚ) : Bool := decide (-e ≤ q - d) && decide (q - d ≤ e)

theorem up_near : ([(Tables.myR, 1, 0, 0, 6.2e-5, 9.66e-5, 8.43e-5), (Tables.myG, 0, 1, 0, 1.1e-5, 1.6e-6, 7.25e-5),
      (Tables.myB, 0, 0, 1, 3.3e-5, 1.14e-5, 1.743e-4)].all fun e : List ℚ × ℚ × ℚ × ℚ × ℚ × ℚ × ℚ =>
    withinQ (upRow 3.2406 (-1.5372) (-0.4986) e.1) e.2.1 e.2.2.2.2.1 &&
    withinQ (upRow (-0.9689) 1.8758 0.0415 e.1) e.2.2.1 e.2.2.2.2.2.1 &&
    withinQ (upRow 0.0557 (-0.2040) 1.0570 e.1) e.2.2.2.1 e.2.2.2.2.2.2) = true := by decide +kernel

end CS

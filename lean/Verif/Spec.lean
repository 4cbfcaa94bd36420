import Verif.Model.Matrix
import Verif.Num.Real
import Mathlib.LinearAlgebra.Matrix.Notation
import Mathlib.LinearAlgebra.Matrix.Determinant.Basic
import Mathlib.LinearAlgebra.Lagrange

/-!
# Specification vocabulary

The mathematical objects the properties talk about, independent of how the crate computes them.
-/

namespace CS.Spec

/-- The mathematical 3x3 matrix held by a `Matrix33`. -/
def toM (m : Matrix33 ℝ) : Matrix (Fin 3) (Fin 3) ℝ :=
  !![m.x0, m.x1, m.x2; m.x3, m.x4, m.x5; m.x6, m.x7, m.x8]

/-- The mathematical vector held by an XYZ / RGB colour. -/
def vecX (v : XYZ ℝ) : Fin 3 → ℝ := ![v.x, v.y, v.z]
def vecR (v : RGBf ℝ) : Fin 3 → ℝ := ![v.r, v.g, v.b]

/-- `n` is a two-sided inverse of `m` -/
def IsInverse (m n : Matrix33 ℝ) : Prop := toM m * toM n = 1 ∧ toM n * toM m = 1

/-- Twice the signed area of a triangle in the xy chromaticity diagram; 0 iff the points are
collinear. -/
def tri (a b c : XYY ℝ) : ℝ := a.x * (b.y - c.y) + b.x * (c.y - a.y) + c.x * (a.y - b.y)

/-- The polynomial of degree below `n` through the points `(k, R k)`, `k = a, ..., a+n-1`, evaluated
at `x`. -/
noncomputable def through (a n : ℕ) (R : ℕ → ℝ) (x : ℝ) : ℝ :=
  (Lagrange.interpolate (Finset.Ico a (a + n)) (fun k : ℕ => (k : ℝ)) R).eval x

/-- ASTM E2022 interpolation to 1 nm of values `R 0, R 1, ...` measured every `I` nm, at `i` nm from
the first: a table of `N` nm holds `m + 1 = (N-1)/I + 1` of them. The value is constant from the last
measured one on, quadratic (three nearest measured values) in the first and in the last interval, and
cubic (two measured values on either side) in all the others. -/
noncomputable def e2022 (I N : ℕ) (R : ℕ → ℝ) (i : ℕ) : ℝ :=
  let m := (N - 1) / I
  let x : ℝ := i / I
  if I * m ≤ i then R m
  else if i < I then through 0 3 R x
  else if I * (m - 1) ≤ i then through (m - 2) 3 R x
  else through (i / I - 1) 4 R x

/-- A tristimulus value: 100 times the sum over the wavelengths of reflectance * illuminant * colour
matching function, divided by the sum of illuminant * y-bar. -/
noncomputable def tristimulus (n : ℕ) (R S c y : ℕ → ℝ) : ℝ :=
  100 * (∑ k ∈ Finset.range n, R k * S k * c k) / ∑ k ∈ Finset.range n, S k * y k

/-- The three tristimulus values for the colour-matching functions `x`, `y`, `z`. -/
noncomputable def xyz (n : ℕ) (R S x y z : ℕ → ℝ) : XYZ ℝ :=
  ⟨tristimulus n R S x y, tristimulus n R S y y, tristimulus n R S z y⟩

/-- Values `vals` measured at grid points `a`, `a+1`, ...: the value at grid point `j`, which is that of
the nearest measured one outside the measured range. -/
def endHeld (vals : List ℝ) (a : ℤ) (j : ℕ) : ℝ :=
  vals.getD (min ((j : ℤ) - a) (vals.length - 1)).toNat 0

end CS.Spec

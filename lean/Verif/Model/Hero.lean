import Verif.Model.Vspd

/-!
# Hero-wavelength sampling
Models the three estimation loops of `examples/hero_wavelength_sampling.rs`.
-/

namespace CS
open Flt

section
variable {T : Type} [Add T] [Sub T] [Mul T] [Div T] [Neg T] [Flt T]

/-- `SPD_START`, examples/hero_wavelength_sampling.rs:6 -/
def heroStart : T := lit 360.0
/-- `SPD_END`, examples/hero_wavelength_sampling.rs:7 -/
def heroEnd : T := lit 780.0
/-- `SPD_RANGE`, examples/hero_wavelength_sampling.rs:8 -/
def heroRange : T := heroEnd - heroStart

/-- `if *l >= SPD_END { *l -= SPD_RANGE; }`, examples/hero_wavelength_sampling.rs:38-42 (also 106-110, 177-181). -/
def heroWrap (l : T) : T := if ge l heroEnd then l - heroRange else l

/-- `x`, the stratified sample number `i` of `n` with the random number `u`, examples/hero_wavelength_sampling.rs:31
(also 99, 170). -/
def heroX (n i : ℕ) (u : T) : T := (ofNat i + u) / ofNat n

/-- `lambda`, the four wavelengths, examples/hero_wavelength_sampling.rs:34-45 (also 102-113, 173-184). -/
def heroLambda (n i : ℕ) (u : T) : List T :=
  let h := heroStart + heroX n i u * heroRange
  [h, h + heroRange / lit 4.0, h + lit 2.0 * heroRange / lit 4.0, h + lit 3.0 * heroRange / lit 4.0].map heroWrap

/-- One turn of `for l in lambda.iter()`, examples/hero_wavelength_sampling.rs:48-50 (also 116-120, 187-191): `rho` is the
reflectance at `l`. Simplified: `xyz_w` is left out: it is never read, and evaluates nothing that is not evaluated here. In
the first of the three loops the illuminant is evaluated before the reflectance, which only matters to which of two panics
comes first. -/
def heroStep (xb yb zb ill rho : T → Res T) (acc : XYZ T) (l : T) : Res (XYZ T) := do
  let r ← rho l
  let d ← ill l
  let s := d * r
  let x ← xb l
  let y ← yb l
  let z ← zb l
  .ok (acc + ⟨x * s, y * s, z * s⟩)

/-- One turn of `for i in 0..NUM_SAMPLES`, examples/hero_wavelength_sampling.rs:29-57 (also 97-127, 168-198); `q` is `i`
and the number drawn by `rng.gen()`. -/
def heroTurn (xb yb zb ill rho : T → Res T) (n : ℕ) (acc : XYZ T) (q : T × ℕ) : Res (XYZ T) :=
  (heroLambda n q.2 q.1).foldlM (heroStep xb yb zb ill rho) acc

/-- The estimate `xyz`, examples/hero_wavelength_sampling.rs:27-59 (also 95-129, 166-200). `us` are the numbers drawn, one for
each of the `us.length` samples; the example has `NUM_SAMPLES` of them. -/
def heroXyz (xb yb zb ill rho : T → Res T) (us : List T) : Res (XYZ T) := do
  let acc ← us.zipIdx.foldlM (heroTurn xb yb zb ill rho us.length) (XYZ.fromScalar (lit 0.0))
  .ok (acc / XYZ.fromScalar (ofNat us.length))

/-- `NUM_SAMPLES`, examples/hero_wavelength_sampling.rs:5 -/
def heroSamples : ℕ := 16384

/-- `rho`, examples/hero_wavelength_sampling.rs:117 (also 188): the uplifted colour at a wavelength, from three evaluators. -/
def heroRho (mr mg mb : T → Res T) (c : RGBf T) (l : T) : Res T := do
  let r ← mr l
  let g ← mg l
  let b ← mb l
  .ok (r * c.r + g * c.g + b * c.b)

end
end CS

import Verif.Model.Tables

/-!
# RGB uplifting and the built-in weights
Models `uplifting.rs:10-15, 51-311, 314-832` and `spd.rs:48-54, 77-89, 272-399`.
-/

namespace CS
open Flt

section
variable {T : Type} [Add T] [Sub T] [Mul T] [Div T] [Neg T] [Flt T]

/-- `SPD::new([..])` of a table of 40 decimal constants, spd.rs:32-34. -/
def SPD.ofTable (t : List ℚ) : SPD T := ⟨fun i => lit (t.getD i.val 0)⟩

/-- `W_X`, spd.rs:273. -/
def wX : SPD T := SPD.ofTable Tables.wX
/-- `W_Y`, spd.rs:315. -/
def wY : SPD T := SPD.ofTable Tables.wY
/-- `W_Z`, spd.rs:357. -/
def wZ : SPD T := SPD.ofTable Tables.wZ

/-- `spd_to_xyz`, spd.rs:77-89: chosen when the crate is compiled, by whether AVX is enabled. -/
def SPD.toXyz (avx : Bool) (s : SPD T) : XYZ T :=
  if avx then spdToXyzAvx wX wY wZ s else spdToXyzScalar wX wY wZ s

/-- `my_basis`, uplifting.rs:51-311. -/
def myBasis : Res (VSPD T × VSPD T × VSPD T) := do
  let r ← VSPD.fromValues (SpdShape.new (lit 380.0) (lit 780.0) (lit 5.0)) (Tables.myR.map lit)
  let g ← VSPD.fromValues (SpdShape.new (lit 380.0) (lit 780.0) (lit 5.0)) (Tables.myG.map lit)
  let b ← VSPD.fromValues (SpdShape.new (lit 380.0) (lit 780.0) (lit 5.0)) (Tables.myB.map lit)
  .ok (r, g, b)

/-- `uplift_my`, uplifting.rs:10-15: `collect()` goes through `VSPD::new`, vspd.rs:739-747. -/
def upliftMy (rgb : RGBf T) : Res (VSPD T) := do
  let basis ← myBasis
  VSPD.new ((basis.1.wavelengths.zip (basis.1.values.zip (basis.2.1.values.zip basis.2.2.values))).map
    fun p => ⟨p.1, p.2.1 * rgb.r + p.2.2.1 * rgb.g + p.2.2.2 * rgb.b⟩)

/-- `SMITS_WHITE`, ..., `SMITS_BLUE`, uplifting.rs:573-831: `from_values` with the shape 380 nm to 720 nm in steps of 10.9375 nm. -/
def smits (t : List ℚ) : Res (VSPD T) :=
  VSPD.fromValues (SpdShape.new (lit 380.0) (lit 720.0) (lit 10.9375)) (t.map lit)

end
end CS

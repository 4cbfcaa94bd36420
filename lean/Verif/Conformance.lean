import Verif.Num.FP
import Verif.Model.Extra
import Verif.Model.Lab
import Verif.Model.Shipped
import Verif.Model.Spectra
import Verif.Model.ToXyz
import Verif.Model.Uplift
import Verif.ConformanceData

/-!
# The repository's unit tests, replayed in the model

These are tests, not proofs: `#guard` runs the model with Lean's evaluator and fails the build when a check
fails. Nothing in `Verif.Props` depends on this file. The code itself cannot be run here; its unit tests
record what it computes, so that a model that passes them, to the same number of units in the last place,
is evidence that the code has been read correctly.

The arithmetic is the IEEE model `FP`. The maths library is the machine's, reached through Lean's `Float`
and `Float32`; `powi` is the loop of compiler-rt.
-/

namespace CS.Conformance

/-! ### the maths library of the machine -/

/-- the double nearest to a binary64 of the model (exact) -/
def toFloat : FP Fmt.b64 → Float
  | .nan => 0.0 / 0.0
  | .pinf => 1.0 / 0.0
  | .ninf => -1.0 / 0.0
  | .nzero => -0.0
  | .fin q _ => (Float.ofInt q.num).scaleB (-(Nat.log2 q.den : ℤ))

/-- the number of a double -/
def ofFloat (x : Float) : FP Fmt.b64 :=
  if x.isNaN then .nan
  else if x.isInf then (if x > 0 then .pinf else .ninf)
  else if x == 0 then (if 1 / x < 0 then .nzero else FP.ofQ _ false 0)
  else
    let (m, e) := x.frExp
    FP.ofQ _ false (((m.scaleB 53).toInt64.toInt : ℚ) * (2 : ℚ) ^ (e - 53))

def toFloat32 (x : FP Fmt.b32) : Float32 := (toFloat x.cast).toFloat32

def ofFloat32 (x : Float32) : FP Fmt.b32 := (ofFloat x.toFloat).cast

/-- `powi` of compiler-rt, for exponents below 2^10 -/
def powi {f : Fmt} (r a : FP f) (b : ℕ) : ℕ → FP f
  | 0 => r
  | n + 1 =>
    let r := if b % 2 = 1 then r * a else r
    if b / 2 = 0 then r else powi r (a * a) (b / 2) n

/-- the position of a float in the order of all floats of its format -/
def ordinal {f : Fmt} (q : ℚ) : ℤ :=
  let e : ℤ := max f.emin (if q = 0 then f.emin else
    let g : ℤ := (Nat.log2 q.num.natAbs : ℤ) - Nat.log2 q.den
    if (2 : ℚ) ^ g ≤ |q| then g else g - 1)
  let m : ℤ := (|q| * (2 : ℚ) ^ (f.p - 1 - e)).floor
  let n := (e - f.emin) * 2 ^ (f.p - 1) + m
  if q < 0 then -n else n

/-- `float_cmp`'s `approx_eq` with a margin: equal, within `eps`, or within `ulps` floats of each other -/
def close {f : Fmt} (eps : ℚ) (ulps : ℤ) (a b : FP f) : Bool :=
  match a, b with
  | .nan, _ | _, .nan | .pinf, _ | _, .pinf | .ninf, _ | _, .ninf => FP.eqb a b
  | a, b => decide (|a.val - b.val| ≤ eps) || decide (|ordinal (f := f) a.val - ordinal (f := f) b.val| ≤ ulps)

local instance : Libm Fmt.b64 where
  powf x y := ofFloat (Float.pow (toFloat x) (toFloat y))
  powi x n := powi (FP.lit 1) x n 10
  sqrt x := ofFloat (toFloat x).sqrt
  hypot x y := ofFloat (toFloat x * toFloat x + toFloat y * toFloat y).sqrt
  atan2 x y := ofFloat (Float.atan2 (toFloat x) (toFloat y))
  sin x := ofFloat (toFloat x).sin
  cos x := ofFloat (toFloat x).cos
  exp x := ofFloat (toFloat x).exp
  log10 x := ofFloat (toFloat x).log10
  toDeg x := ofFloat (toFloat x * (180.0 / 3.14159265358979323846264338327950288))
  toRad x := ofFloat (toFloat x * (3.14159265358979323846264338327950288 / 180.0))
  ulps2 x y := close 0 2 x y

local instance : Libm Fmt.b32 where
  powf x y := ofFloat32 (Float32.pow (toFloat32 x) (toFloat32 y))
  powi x n := powi (FP.lit 1) x n 10
  sqrt x := ofFloat32 (toFloat32 x).sqrt
  hypot x y := ofFloat32 (toFloat32 x * toFloat32 x + toFloat32 y * toFloat32 y).sqrt
  atan2 x y := ofFloat32 (Float32.atan2 (toFloat32 x) (toFloat32 y))
  sin x := ofFloat32 (toFloat32 x).sin
  cos x := ofFloat32 (toFloat32 x).cos
  exp x := ofFloat32 (toFloat32 x).exp
  log10 x := ofFloat32 (toFloat32 x).log10
  toDeg x := ofFloat32 (toFloat32 x * 57.2957795130823208767981548141051703)
  toRad x := ofFloat32 (toFloat32 x * (3.14159265358979323846264338327950288 / 180.0))
  ulps2 x y := close 0 2 x y

abbrev F := FP Fmt.b64
abbrev F32 := FP Fmt.b32

/-- a decimal constant of type f64 -/
def c (q : ℚ) : F := FP.lit q

/-- did not panic, and passes the check -/
def okAnd {α : Type} (r : Res α) (p : α → Bool) : Bool :=
  match r with
  | .ok a => p a
  | .error _ => false

def closeXyz {f : Fmt} (eps : ℚ) (ulps : ℤ) (v : XYZ (FP f)) (w : ℚ × ℚ × ℚ) : Bool :=
  v.approxEq (close eps ulps) ⟨FP.lit w.1, FP.lit w.2.1, FP.lit w.2.2⟩

def closeRgb {f : Fmt} (eps : ℚ) (ulps : ℤ) (v : RGBf (FP f)) (w : ℚ × ℚ × ℚ) : Bool :=
  v.approxEq (close eps ulps) ⟨FP.lit w.1, FP.lit w.2.1, FP.lit w.2.2⟩

/-! ### vspd.rs:799-1016 -/

/-- the spectrum of the tests `interpolate`, `extrapolate` and `trim` -/
def ramp : Res (VSPD F) :=
  Spectra.vspd [(380, 0.5), (400, 0.4), (420, 0.3), (440, 0.2), (460, 0.1), (480, 0)]

def shape (a b n : ℚ) : SpdShape F := SpdShape.new (c a) (c b) (c n)

-- `interpolate`, vspd.rs:825-853
#guard okAnd (do (← Sprague.new (← ramp)).evaluate (c 390)) fun v => FP.eqb v (c 0.45)
#guard okAnd (do
    let s ← (← ramp).interpolate (shape 380 480 10)
    let t : VSPD F ← Spectra.vspd [(380, 0.5), (390, 0.45), (400, 0.4), (410, 0.35), (420, 0.3), (430, 0.25),
      (440, 0.2), (450, 0.15), (460, 0.1), (470, 0.05), (480, 0)]
    .ok (s.approxEq (close 1e-15 2) t)) id

-- `extrapolate`, vspd.rs:857-884
#guard okAnd (do
    let s ← (← ramp).extrapolate 100 (shape 320 520 10)
    let t : VSPD F ← Spectra.vspd [(320, 0.5), (340, 0.5), (360, 0.5), (380, 0.5), (400, 0.4), (420, 0.3),
      (440, 0.2), (460, 0.1), (480, 0), (500, 0), (520, 0)]
    .ok (t.eqb s)) id

-- `trim`, vspd.rs:887-916
#guard [(400, 440), (390, 450)].all fun p : ℚ × ℚ => okAnd (do
    let s ← (← ramp).trim (shape p.1 p.2 10)
    let t : VSPD F ← Spectra.vspd [(400, 0.4), (420, 0.3), (440, 0.2)]
    .ok (t.eqb s)) id

-- `to_xyz`, vspd.rs:919-966
def d65 : Res (VSPD F) := Spectra.vspd Spectra.d65
def darkSkin : Res (VSPD F) := Spectra.vspd Spectra.ccDarkSkin

#guard okAnd (do spdToXyzIntegration 1000 (← darkSkin) (← d65) (← Spectra.cie1931) SpdShape.astmE308) fun v =>
  closeXyz 1e-11 2 v (11.14725784521762, 10.072542226497, 6.8048713133720)
#guard okAnd (do
    let s ← darkSkin
    let s ← s.interpolate (SpdShape.new s.start s.end (c 5))
    s.toXyz 1000 (← d65) (← Spectra.cie1931)) fun v =>
  closeXyz 1e-13 2 v (11.14726060385657824269856064347550, 10.07254417119669, 6.80486371314964)
#guard okAnd (do
    let s ← (← darkSkin).align 1000 (shape 380 730 10)
    let il ← (← d65).align 1000 (shape 360 780 1)
    let cm ← (← Spectra.cie1931).align 1000 (shape 360 780 1)
    .ok [← spdToXyzWeights 1000 s il cm, ← s.toXyz 1000 il cm]) fun vs =>
  vs.all fun v => closeXyz 1e-14 1 v
    (11.14724658576002802590210194466636, 10.07258885098873690822074422612786, 6.80485137438652287755758152343333)

-- `lagrange_coeff`, vspd.rs:969-978
#guard (List.zipWith (close 0 1) (lagrangeCoefficients (c 0.1) 4)
  ([0.8265, 0.2755, -0.1305, 0.0285].map c)).all id

-- `checker_xyz`, vspd.rs:1009-1015
#guard okAnd (do
    let il ← d65
    let cm ← Spectra.cie1931
    xyzD65.mapM fun p => do
      let s : VSPD F ← Spectra.vspd ((Spectra.checker.lookup p.1).getD [])
      let v ← s.toXyz 1000 il cm
      .ok (closeXyz 1e-14 2 v p.2)) fun l => l.all id && l.length == 24

/-! ### spd.rs:229-269 -/

-- `test_spd_to_xyz`, `test_spd_to_xyz_avx`
#guard [(false, 1), (true, 2)].all fun m : Bool × ℤ => babelcolor.all fun p =>
  match xyzD65.lookup p.1 with
  | some w => closeXyz 0 m.2 (SPD.toXyz m.1 (SPD.ofTable p.2 : SPD F32)) w
  | none => false

/-! ### color_space_rgb.rs:883-990 -/

/-- `rgb_workout` -/
def workout (m : Res (ColorSpaceRGB F)) (lin enc : List (String × ℚ × ℚ × ℚ)) : Bool :=
  okAnd (do
    let m ← m
    let mtx ← xyzToRgbMatrix (Shipped.srgb c).white m
    .ok (m, mtx)) fun (m, mtx) => xyzD65.all fun p =>
      match lin.lookup p.1, enc.lookup p.1 with
      | some l, some e =>
        let rgb := xyzToRgb mtx ⟨c p.2.1, c p.2.2.1, c p.2.2.2⟩
        let en := m.encode rgb
        let de := m.decode en
        closeRgb 1e-14 2 rgb l && closeRgb 1e-14 2 en e && closeRgb 1e-14 2 de l
      | _, _ => false

#guard workout (.ok (Shipped.srgb c)) srgbLinear srgbEncoded
#guard workout (Shipped.bt709 c) iturBt709Linear iturBt709Encoded
#guard workout (.ok (Shipped.alexaWideGamut c)) alexaWideGamutLinear alexaWideGamutEncoded
#guard workout (.ok (Shipped.aces c)) acesLinear acesEncoded
#guard workout (Shipped.bt2020 c) iturBt2020Linear iturBt2020Encoded
#guard workout (Shipped.acesCg c) acesCgLinear acesCgEncoded
#guard workout (Shipped.dciP3 c) dciP3Linear dciP3Encoded

-- `checker_srgb_to_aces`
#guard okAnd (rgbToRgbMatrix (Shipped.srgb c) (Shipped.aces c)) fun m => srgbLinear.all fun p =>
  match acesFromSrgb.lookup p.1 with
  | some w => closeRgb 1e-14 1 (m * (⟨c p.2.1, c p.2.2.1, c p.2.2.2⟩ : RGBf F)) w
  | none => false

/-! ### transform.rs:161-194 -/

/-- fused multiply-add of finite numbers, rounded once -/
def fma (a b d : F32) : F32 := FP.ofQ _ false (a.val * b.val + d.val)

-- `test_checker_xyz_to_rgb_avx_planes`
#guard okAnd (do
    let m ← xyzToRgbMatrix (Shipped.srgb c).white (Shipped.srgb c)
    let r ← xyzPlanesToRgb 8 fma m.narrow (xyzD65.map fun p => (c p.2.1).cast) (xyzD65.map fun p => (c p.2.2.1).cast)
      (xyzD65.map fun p => (c p.2.2.2).cast)
    .ok (List.zipWith (fun (v : F32 × F32 × F32) (p : String × ℚ × ℚ × ℚ) =>
      (⟨v.1, v.2.1, v.2.2⟩ : RGBf F32).approxEq (close 1e-7 2)
        (⟨c p.2.1, c p.2.2.1, c p.2.2.2⟩ : RGBf F).narrow) r srgbLinear)) fun l => l.all id && l.length == 24

/-! ### lab.rs:104-123, 225-302 -/

-- `test_delta_e` (f32, rounded to four places)
#guard [((50, 2.6772, -79.7751), (50, 0, -82.7485), 2.0425), ((50, 3.1571, -77.2803), (50, 0, -82.7485), 2.8615),
    ((50, 2.8361, -74.02), (50, 0, -82.7485), 3.4412), ((50, -1.3802, -84.2814), (50, 0, -82.7485), 1),
    ((50, -1.1848, -84.8006), (50, 0, -82.7485), 1), ((50, -0.9009, -85.5211), (50, 0, -82.7485), 1),
    ((50, 0, 0), (50, -1, 2), 2.3669), ((50, -1, 2), (50, 0, 0), 2.3669),
    ((50, 2.49, -0.001), (50, -2.49, 0.0009), 7.1792), ((50, 2.49, -0.001), (50, -2.49, 0.001), 7.1792),
    ((50, 2.49, -0.001), (50, -2.49, 0.0011), 7.2195), ((50, 2.49, -0.001), (50, -2.49, 0.0012), 7.2195),
    ((50, -0.001, 2.49), (50, 0.0009, -2.49), 4.8045), ((50, -0.001, 2.49), (50, 0.001, -2.49), 4.8045)].all
  fun t : (ℚ × ℚ × ℚ) × (ℚ × ℚ × ℚ) × ℚ =>
    let f := fun p : ℚ × ℚ × ℚ => (⟨FP.lit p.1, FP.lit p.2.1, FP.lit p.2.2⟩ : Lab F32)
    let p4 : F32 := powi (FP.lit 1) (FP.lit 10) 4 10
    FP.eqb (FP.round (deltaE2000 (f t.1) (f t.2.1) * p4) / p4) (FP.lit t.2.2)

-- `test_lab_xyz_conversions`, on one point in a thousand of the grid of the test
#guard [0, 8, 20, 48, 76, 98].all fun L => [-127, -91, -55, -1, 29, 77, 125].all fun a =>
  [-127, -91, -55, -1, 29, 77, 125].all fun b =>
    let d50 : XYZ F := XYZ.fromChromaticity (Shipped.xyD50 c)
    let l : Lab F := ⟨c L, c a, c b⟩
    let m := xyzToLab (labToXyz l d50) d50
    let near := fun x y : F => FP.lt (FP.abs (x - y)) (c 2e-12)
    near l.L m.L && near l.a m.a && near l.b m.b

end CS.Conformance

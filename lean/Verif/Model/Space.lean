import Verif.Model.Cat
import Verif.Model.Transfer

/-!
# RGB colour spaces and conversions
Models `color_space_rgb.rs:287-676` and `transform.rs`.
-/

namespace CS
open Flt

/-- `ColorSpaceRGB<T>`, color_space_rgb.rs:291-303. -/
structure ColorSpaceRGB (T : Type) where
  xf_xyz_to_rgb : Matrix33 T
  xf_rgb_to_xyz : Matrix33 T
  red : XYY T
  green : XYY T
  blue : XYY T
  white : XYY T
  oetf : RGBf T → RGBf T
  eotf : RGBf T → RGBf T

section
variable {T : Type} [Add T] [Sub T] [Mul T] [Div T] [Neg T] [Flt T]

/-- `build_xyz_to_rgb_matrix`, color_space_rgb.rs:420-457. -/
def buildXyzToRgbMatrix (red green blue white : XYY T) : Matrix33 T :=
  let xr := red.x
  let yr := red.y
  let zr := lit 1.0 - (xr + yr)
  let xg := green.x
  let yg := green.y
  let zg := lit 1.0 - (xg + yg)
  let xb := blue.x
  let yb := blue.y
  let zb := lit 1.0 - (xb + yb)
  let xw := white.x
  let yw := white.y
  let zw := lit 1.0 - (xw + yw)
  let rx := (yg * zb) - (yb * zg)
  let ry := (xb * zg) - (xg * zb)
  let rz := (xg * yb) - (xb * yg)
  let gx := (yb * zr) - (yr * zb)
  let gy := (xr * zb) - (xb * zr)
  let gz := (xb * yr) - (xr * yb)
  let bx := (yr * zg) - (yg * zr)
  let by' := (xg * zr) - (xr * zg)
  let bz := (xr * yg) - (xg * yr)
  let rw := ((rx * xw) + (ry * yw) + (rz * zw)) / yw
  let gw := ((gx * xw) + (gy * yw) + (gz * zw)) / yw
  let bw := ((bx * xw) + (by' * yw) + (bz * zw)) / yw
  ⟨rx / rw, ry / rw, rz / rw, gx / gw, gy / gw, gz / gw, bx / bw, by' / bw, bz / bw⟩

namespace ColorSpaceRGB
/-- `ColorSpaceRGB::new`, color_space_rgb.rs:326-347. -/
def new (red green blue white : XYY T) (oetf eotf : RGBf T → RGBf T) : Res (ColorSpaceRGB T) := do
  let m := buildXyzToRgbMatrix red green blue white
  let mi ← unwrap m.inverse
  .ok ⟨m, mi, red, green, blue, white, oetf, eotf⟩

/-- `ColorSpaceRGB::new_with_specified_matrices`, color_space_rgb.rs:378-398. -/
def newWithMatrices (red green blue white : XYY T) (m mi : Matrix33 T)
    (oetf eotf : RGBf T → RGBf T) : ColorSpaceRGB T :=
  ⟨m, mi, red, green, blue, white, oetf, eotf⟩

/-- `ColorSpaceRGB::encode`, color_space_rgb.rs:405-407. -/
def encode (cs : ColorSpaceRGB T) (c : RGBf T) : RGBf T := cs.oetf c
/-- `ColorSpaceRGB::decode`, color_space_rgb.rs:414-416. -/
def decode (cs : ColorSpaceRGB T) (c : RGBf T) : RGBf T := cs.eotf c
end ColorSpaceRGB

/-! ## transform.rs -/

/-- `xyz_to_rgb_matrix`, transform.rs:10-15. -/
def xyzToRgbMatrix (xyzWhite : XYY T) (cs : ColorSpaceRGB T) : Res (Matrix33 T) := do
  let c ← cat02 (XYZ.fromChromaticity xyzWhite) (XYZ.fromChromaticity cs.white)
  .ok (cs.xf_xyz_to_rgb * c)

/-- `xyz_to_rgb_matrix_with_cat`, transform.rs:19-24. -/
def xyzToRgbMatrixWithCat (cat : Matrix33 T) (cs : ColorSpaceRGB T) : Matrix33 T :=
  cs.xf_xyz_to_rgb * cat

/-- `rgb_to_xyz_matrix`, transform.rs:28-33. -/
def rgbToXyzMatrix (xyzWhite : XYY T) (cs : ColorSpaceRGB T) : Res (Matrix33 T) := do
  let c ← cat02 (XYZ.fromChromaticity cs.white) (XYZ.fromChromaticity xyzWhite)
  .ok (c * cs.xf_rgb_to_xyz)

/-- `xyz_to_rgb`, transform.rs:36-42. -/
def xyzToRgb (m : Matrix33 T) (v : XYZ T) : RGBf T :=
  let x : XYZ T := m * (v / XYZ.fromScalar (lit 100.0 : T))
  ⟨x.x, x.y, x.z⟩

/-- `xyz_slice_to_rgb`, transform.rs:45-56: a push loop, modelled as a left fold that appends. -/
def xyzSliceToRgb (m : Matrix33 T) (xyzs : List (XYZ T)) : List (RGBf T) :=
  xyzs.foldl (fun result v =>
    let x : XYZ T := m * (v / XYZ.fromScalar (lit 100.0 : T))
    result ++ [⟨x.x, x.y, x.z⟩]) []

/-- `rgb_to_xyz`, transform.rs:59-65. -/
def rgbToXyz (m : Matrix33 T) (c : RGBf T) : XYZ T :=
  let x : RGBf T := m * c
  (⟨x.r, x.g, x.b⟩ : XYZ T) * (XYZ.fromScalar (lit 100.0 : T))

/-- `rgb_to_rgb_matrix`, transform.rs:71-76. -/
def rgbToRgbMatrix (src dst : ColorSpaceRGB T) : Res (Matrix33 T) := do
  let c ← cat02 (XYZ.fromChromaticity src.white) (XYZ.fromChromaticity dst.white)
  .ok (dst.xf_xyz_to_rgb * c * src.xf_rgb_to_xyz)

/-- The `zip`/`map`/`count` loop of `rgb_to_rgb`, transform.rs:86-92, over the output slice `to`
(returned with its new contents) and the input slice: it stops at the end of the shorter one. -/
def convLoop {U : Type} (g : RGBf T → U) : List U → List (RGBf T) → List U × ℕ
  | [], _ => ([], 0)
  | ts, [] => (ts, 0)
  | _ :: ts, c :: cs => let (rest, n) := convLoop g ts cs; (g c :: rest, n + 1)

/-- `rgb_to_rgb`, transform.rs:80-93. Returns the final contents of `to` and the count; `into`
is `U::from`. -/
def rgbToRgb {U : Type} (into : RGBf T → U) (src dst : ColorSpaceRGB T)
    (frm : List (RGBf T)) (dest : List U) : Res (List U × ℕ) := do
  let xf ← rgbToRgbMatrix src dst
  .ok (convLoop (fun c => into (dst.encode (xf * src.decode c))) dest frm)

/-! ### The planar SIMD path, transform.rs:96-159 -/

/-- lane-wise kernel of transform.rs:119-134 for one element (r, g, b); `fma` is `S::fmadd_ps` -/
def planeKernel (fma : T → T → T → T) (m : Matrix33 T) (x y z : T) : T × T × T :=
  let s : T := lit 0.01
  let x := x * s
  let y := y * s
  let z := z * s
  (fma m.x2 z (fma m.x1 y (m.x0 * x)),
   fma m.x5 z (fma m.x4 y (m.x3 * x)),
   fma m.x8 z (fma m.x7 y (m.x6 * x)))

/-- scalar remainder of transform.rs:152-155 for one element -/
def planeTail (m : Matrix33 T) (x y z : T) : T × T × T :=
  let v : XYZ T := m * (⟨x * lit 0.01, y * lit 0.01, z * lit 0.01⟩ : XYZ T)
  (v.x, v.y, v.z)

/-- `xyz_slice_to_rgb_avx_planes`, transform.rs:96-159, with vector width `W`. The three result
vectors are updated in lock step and modelled as one list of triples, initially zero. A load or
store of a whole block is modelled lane by lane; an out-of-bounds unchecked access (possible only
when `ys` or `zs` is shorter than `xs`) is reported as `Panic.index`. -/
def xyzPlanesToRgb (W : ℕ) (fma : T → T → T → T) (m : Matrix33 T) (xs ys zs : List T) :
    Res (List (T × T × T)) := do
  let n := xs.length
  let numIters := n / W
  let startRemaining := n - numIters
  let result := List.replicate n ((zero, zero, zero) : T × T × T)
  let result ← (List.range numIters).foldlM (fun res i =>
    (List.range W).foldlM (fun res l => do
      let x ← idx xs (i * W + l)
      let y ← idx ys (i * W + l)
      let z ← idx zs (i * W + l)
      Except.ok (res.set (i * W + l) (planeKernel fma m x y z))) res) result
  let rest := (xs.drop startRemaining).zip ((ys.drop startRemaining).zip (zs.drop startRemaining))
  .ok (rest.zipIdx.foldl (fun res p =>
    res.set (startRemaining + p.2) (planeTail m p.1.1 p.1.2.1 p.1.2.2)) result)

end
end CS

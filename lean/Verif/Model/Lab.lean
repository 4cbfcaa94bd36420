import Verif.Model.Color

/-!
# L*a*b* and colour differences
Models `lab.rs` and `illuminant.rs:44-61`.
-/

namespace CS
open Flt

/-- `Lab<T>`, lab.rs:10-20. -/
@[ext] structure Lab (T : Type) where
  L : T
  a : T
  b : T

section
variable {T : Type} [Add T] [Sub T] [Mul T] [Div T] [Neg T] [Flt T]

/-- The companding used three times in `xyz_to_lab`, lab.rs:45-64. -/
def labF (r : T) : T :=
  let epsilon : T := lit 216.0 / lit 24389.0
  let kappa : T := lit 24389.0 / lit 27.0
  if gt r epsilon then powf r (lit 1.0 / lit 3.0) else (kappa * r + lit 16.0) / lit 116.0

/-- `xyz_to_lab`, lab.rs:36-66 (arguments already converted into XYZ). -/
def xyzToLab (xyz white : XYZ T) : Lab T :=
  let r : XYZ T := xyz / white
  let fx := labF r.x
  let fy := labF r.y
  let fz := labF r.z
  ⟨lit 116.0 * fy - lit 16.0, lit 500.0 * (fx - fy), lit 200.0 * (fy - fz)⟩

/-- `lab_to_xyz`, lab.rs:74-101. -/
def labToXyz (l : Lab T) (white : XYZ T) : XYZ T :=
  let epsilon : T := lit 216.0 / lit 24389.0
  let kappa : T := lit 24389.0 / lit 27.0
  let f_y := (l.L + lit 16.0) / lit 116.0
  let f_z := f_y - (l.b / lit 200.0)
  let f_x := (l.a / lit 500.0) + f_y
  let f_x3 := powi f_x 3
  let x_r := if gt f_x3 epsilon then f_x3 else ((lit 116.0 * f_x) - lit 16.0) / kappa
  let y_r := if gt l.L (kappa * epsilon) then powi ((l.L + lit 16.0) / lit 116.0) 3 else l.L / kappa
  let f_z3 := powi f_z 3
  let z_r := if gt f_z3 epsilon then f_z3 else ((lit 116.0 * f_z) - lit 16.0) / kappa
  (⟨x_r, y_r, z_r⟩ : XYZ T) * white

/-- `delta_E_1976`, lab.rs:129-134. -/
def deltaE1976 (c1 c2 : Lab T) : T :=
  sqrt (powi (c1.L - c2.L) 2 + powi (c1.a - c2.a) 2 + powi (c1.b - c2.b) 2)

/-- Hue angle in degrees in [0,360), lab.rs:165-168. -/
def hueDeg (b ap : T) : T :=
  let h := toDeg (atan2 b ap)
  if lt h (lit 0.0) then h + lit 360.0 else h

/-- `delta_h_p`, lab.rs:173-182. -/
def deltaHue (cp1 cp2 h1 h2 : T) : T :=
  let d := h2 - h1
  if eqb (cp1 * cp2) (lit 0.0) then lit 0.0
  else if le (Flt.abs d) (lit 180.0) then d
  else if gt d (lit 180.0) then d - lit 360.0
  else d + lit 360.0

/-- `h_bar_p`, lab.rs:189-198. -/
def meanHue (cp1 cp2 h1 h2 : T) : T :=
  let d := Flt.abs (h1 - h2)
  if eqb (cp1 * cp2) (lit 0.0) then h1 + h2
  else if le d (lit 180.0) then (h1 + h2) / lit 2.0
  else if lt (h1 + h2) (lit 360.0) then (h1 + h2 + lit 360.0) / lit 2.0
  else (h1 + h2 - lit 360.0) / lit 2.0

/-- `G`, lab.rs:160, as a function of the mean chroma. -/
def ciedeG (cbar : T) : T :=
  lit 0.5 * (lit 1.0 - sqrt (powi cbar 7 / (powi cbar 7 + powi (lit 25.0) 7)))

/-- `T`, lab.rs:200-203. -/
def ciedeT (h : T) : T :=
  lit 1.0 - lit 0.17 * cos (toRad (h - lit 30.0))
    + lit 0.24 * cos (toRad (lit 2.0 * h))
    + lit 0.32 * cos (toRad (lit 3.0 * h + lit 6.0))
    - lit 0.20 * cos (toRad (lit 4.0 * h - lit 63.0))

/-- `S_L`, lab.rs:209, as a function of the mean lightness. -/
def ciedeSL (Lbar : T) : T :=
  lit 1.0 + (lit 0.015 * powi (Lbar - lit 50.0) 2) / sqrt (lit 20.0 + powi (Lbar - lit 50.0) 2)

/-- `S_C`, lab.rs:210, as a function of the mean chroma. -/
def ciedeSC (cbar : T) : T := lit 1.0 + lit 0.045 * cbar

/-- `S_H`, lab.rs:211, as a function of the mean chroma and mean hue. -/
def ciedeSH (cbar hbar : T) : T := lit 1.0 + lit 0.015 * cbar * ciedeT hbar

/-- `R_T`, lab.rs:205-207, 212. -/
def ciedeRT (cbar hbar : T) : T :=
  let dtheta := lit 30.0 * exp (-sqr ((hbar - lit 275.0) / lit 25.0))
  let rc := lit 2.0 * sqrt (powi cbar 7 / (powi cbar 7 + powi (lit 25.0) 7))
  (-sin (toRad (lit 2.0 * dtheta))) * rc

/-- The quantities of steps 1 and 2 of `delta_E_2000`, lab.rs:158-198. -/
structure Ciede (T : Type) where
  dL : T
  dC : T
  dH : T
  Lbar : T
  cbar : T
  hbar : T

/-- lab.rs:149-198 -/
def ciede (c1 c2 : Lab T) : Ciede T :=
  let c1ab := hypot c1.a c1.b
  let c2ab := hypot c2.a c2.b
  let cbarab := (c1ab + c2ab) / lit 2.0
  let G := ciedeG cbarab
  let ap1 := (lit 1.0 + G) * c1.a
  let ap2 := (lit 1.0 + G) * c2.a
  let cp1 := hypot ap1 c1.b
  let cp2 := hypot ap2 c2.b
  let h1 := hueDeg c1.b ap1
  let h2 := hueDeg c2.b ap2
  let dh := deltaHue cp1 cp2 h1 h2
  { dL := c2.L - c1.L
    dC := cp2 - cp1
    dH := lit 2.0 * sqrt (cp1 * cp2) * sin (toRad (dh / lit 2.0))
    Lbar := (c1.L + c2.L) / lit 2.0
    cbar := (cp1 + cp2) / lit 2.0
    hbar := meanHue cp1 cp2 h1 h2 }

/-- The argument of the final square root, lab.rs:214-222. -/
def ciedeRadicand (q : Ciede T) : T :=
  let sl := ciedeSL q.Lbar
  let sc := ciedeSC q.cbar
  let sh := ciedeSH q.cbar q.hbar
  let rt := ciedeRT q.cbar q.hbar
  let kl : T := lit 1.0
  let kc : T := lit 1.0
  let kh : T := lit 1.0
  sqr (q.dL / (kl * sl)) + sqr (q.dC / (kc * sc)) + sqr (q.dH / (kh * sh))
    + rt * ((q.dC / (kc * sc)) * (q.dH / (kh * sh)))

/-- `delta_E_2000`, lab.rs:145-223. -/
def deltaE2000 (c1 c2 : Lab T) : T := sqrt (ciedeRadicand (ciede c1 c2))

/-- `illuminant::xy::cct`, illuminant.rs:44-61; `none` is `Err(TemperatureOutOfBound)`. -/
def cct (t : T) : Option (XYY T) :=
  let t2 := t * t
  let t3 := t2 * t
  if lt t (lit 4000.0) || gt t (lit 25000.0) then none
  else if le t (lit 7000.0) then
    let xd := -lit 4.607e9 / t3 + lit 2.9678e6 / t2 + lit 0.09911e3 / t + lit 0.244063
    let yd := -lit 3.0 * xd * xd + lit 2.870 * xd - lit 0.275
    some ⟨xd, yd, lit 1.0⟩
  else
    let xd := -lit 2.0064e9 / t3 + lit 1.9018e6 / t2 + lit 0.24748e3 / t + lit 0.237040
    let yd := -lit 3.0 * xd * xd + lit 2.870 * xd - lit 0.275
    some ⟨xd, yd, lit 1.0⟩
end
end CS

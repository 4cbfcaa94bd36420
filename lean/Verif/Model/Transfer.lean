import Verif.Model.Color

/-!
# Transfer functions
Models the `encode` and `decode` modules, `color_space_rgb.rs:13-286`.
-/

namespace CS
open Flt

section
variable {T : Type} [Add T] [Sub T] [Mul T] [Div T] [Neg T] [Flt T]

/-- apply a scalar curve to each component, e.g. color_space_rgb.rs:33-42 -/
def RGBf.mapc (f : T → T) (c : RGBf T) : RGBf T := ⟨f c.r, f c.g, f c.b⟩

namespace encode
/-- `encode::srgb_t`, color_space_rgb.rs:21-30. -/
def srgb_t (x : T) : T :=
  if le x (lit 0.0031308) then x * lit 12.92
  else (lit 1.0 + lit 0.055) * powf x (lit 1.0 / lit 2.4) - lit 0.055

/-- `encode::bt709_t`, color_space_rgb.rs:46-56. -/
def bt709_t (x : T) : T :=
  if le x (lit 0.018) then x * lit 4.5
  else lit 1.099 * powf x (lit 0.45) - lit 0.099

/-- `encode::bt2020_t`, color_space_rgb.rs:72-83. -/
def bt2020_t (x : T) : T :=
  let alpha := lit 1.099
  let beta := lit 0.018
  if lt x beta then x * lit 4.5
  else alpha * powf x (lit 0.45) - (alpha - lit 1.0)

/-- `encode::linear_t`, color_space_rgb.rs:98-103. -/
def linear_t (x : T) : T := x

/-- `encode::alexa_logc_v3_t`, color_space_rgb.rs:119-136. -/
def alexa_logc_v3_t (x : T) : T :=
  let cut := lit 0.010591
  let a := lit 5.555556
  let b := lit 0.052272
  let c := lit 0.247190
  let d := lit 0.385537
  let e := lit 5.367655
  let f := lit 0.092809
  if gt x cut then c * log10 (a * x + b) + d else e * x + f

/-- `encode::srgb`, color_space_rgb.rs:33-42. -/
def srgb (c : RGBf T) : RGBf T := c.mapc srgb_t
/-- `encode::bt709`, color_space_rgb.rs:59-68. -/
def bt709 (c : RGBf T) : RGBf T := c.mapc bt709_t
/-- `encode::bt2020`, color_space_rgb.rs:86-95. -/
def bt2020 (c : RGBf T) : RGBf T := c.mapc bt2020_t
/-- `encode::linear`, color_space_rgb.rs:106-115. -/
def linear (c : RGBf T) : RGBf T := c.mapc linear_t
/-- `encode::alexa_logc_v3`, color_space_rgb.rs:139-148. -/
def alexa_logc_v3 (c : RGBf T) : RGBf T := c.mapc alexa_logc_v3_t
end encode

namespace decode
/-- `decode::srgb_t`, color_space_rgb.rs:159-168. -/
def srgb_t (f : T) : T :=
  if le f (lit 0.040449936) then f / lit 12.92
  else powf ((f + lit 0.055) / lit 1.055) (lit 2.4)

/-- `decode::bt709_t`, color_space_rgb.rs:184-193. -/
def bt709_t (f : T) : T :=
  if le f (lit 0.018 * lit 4.5) then f / lit 4.5
  else powf ((f + lit 0.099) / lit 1.099) (lit 1.0 / lit 0.45)

/-- `decode::bt2020_t`, color_space_rgb.rs:209-220. -/
def bt2020_t (f : T) : T :=
  let alpha := lit 1.099
  let beta := lit 0.018
  if lt f (beta * lit 4.5) then f / lit 4.5
  else powf ((f + (alpha - lit 1.0)) / alpha) (lit 1.0 / lit 0.45)

/-- `decode::linear_t`, color_space_rgb.rs:235-240. -/
def linear_t (x : T) : T := x

/-- `decode::alexa_logc_v3_t`, color_space_rgb.rs:256-273. -/
def alexa_logc_v3_t (t : T) : T :=
  let a := lit 5.555556
  let b := lit 0.052272
  let c := lit 0.247190
  let d := lit 0.385537
  let e := lit 5.367655
  let f := lit 0.092809
  let ecf := lit 0.149658
  if gt t ecf then (powf (lit 10.0) ((t - d) / c) - b) / a else (t - f) / e

/-- `decode::srgb`, color_space_rgb.rs:171-180. -/
def srgb (c : RGBf T) : RGBf T := c.mapc srgb_t
/-- `decode::bt709`, color_space_rgb.rs:196-205. -/
def bt709 (c : RGBf T) : RGBf T := c.mapc bt709_t
/-- `decode::bt2020`, color_space_rgb.rs:223-232. -/
def bt2020 (c : RGBf T) : RGBf T := c.mapc bt2020_t
/-- `decode::linear`, color_space_rgb.rs:243-252. -/
def linear (c : RGBf T) : RGBf T := c.mapc linear_t
/-- `decode::alexa_logc_v3`, color_space_rgb.rs:276-285. -/
def alexa_logc_v3 (c : RGBf T) : RGBf T := c.mapc alexa_logc_v3_t
end decode
end
end CS

import Verif.Num.Flt
import Mathlib.Data.UInt

/-!
# Scalars, colours and chromaticities
Models `math.rs:10-131`, `rgb.rs`, `xyz.rs`, `chromaticity.rs`.
-/

namespace CS
open Flt

section
variable {T : Type} [Add T] [Sub T] [Mul T] [Div T] [Neg T] [Flt T]

/-- `math::clamp`, math.rs:11-22. -/
def clamp (x a b : T) : T := if lt x a then a else if gt x b then b else x

/-- `math::lerp`, math.rs:25-27. -/
def lerp (a b t : T) : T := (one - t) * a + t * b

/-- `math::sqr`, math.rs:37-42. -/
def sqr (x : T) : T := x * x

/-! ## RGB -/

/-- `RGBf<T>`, rgb.rs:12-19. -/
@[ext] structure RGBf (T : Type) where
  r : T
  g : T
  b : T

namespace RGBf
/-- `RGBf::from_scalar`, rgb.rs:29-31. -/
def fromScalar (s : T) : RGBf T := ⟨s, s, s⟩

/-- `RGBf::powf`, rgb.rs:33-39. -/
def powf (c : RGBf T) (x : T) : RGBf T := ⟨Flt.powf c.r x, Flt.powf c.g x, Flt.powf c.b x⟩

/-- `RGBf::abs`, rgb.rs:41-47. -/
def abs (c : RGBf T) : RGBf T := ⟨Flt.abs c.r, Flt.abs c.g, Flt.abs c.b⟩

/-- derived `PartialEq for RGBf`, rgb.rs:14. -/
def eqb (a b : RGBf T) : Bool := Flt.eqb a.r b.r && Flt.eqb a.g b.g && Flt.eqb a.b b.b

/-- `Index<usize> for RGBf`, rgb.rs:129-143. -/
def index (c : RGBf T) (i : ℕ) : Res T :=
  match i with
  | 0 => .ok c.r
  | 1 => .ok c.g
  | 2 => .ok c.b
  | _ => .error .index

/-- Assignment through `IndexMut<usize> for RGBf`, rgb.rs:145-157: `c[i] = v`. -/
def setIndex (c : RGBf T) (i : ℕ) (v : T) : Res (RGBf T) :=
  match i with
  | 0 => .ok { c with r := v }
  | 1 => .ok { c with g := v }
  | 2 => .ok { c with b := v }
  | _ => .error .index

/-- `Add for RGBf` (and `AddAssign`), rgb.rs:213-238. -/
instance : Add (RGBf T) := ⟨fun a b => ⟨a.r + b.r, a.g + b.g, a.b + b.b⟩⟩
/-- `Sub for RGBf`, rgb.rs:241-254. -/
instance : Sub (RGBf T) := ⟨fun a b => ⟨a.r - b.r, a.g - b.g, a.b - b.b⟩⟩
/-- `Mul for RGBf`, rgb.rs:257-270. -/
instance : Mul (RGBf T) := ⟨fun a b => ⟨a.r * b.r, a.g * b.g, a.b * b.b⟩⟩
/-- `Div for RGBf`, rgb.rs:273-286. -/
instance : Div (RGBf T) := ⟨fun a b => ⟨a.r / b.r, a.g / b.g, a.b / b.b⟩⟩
/-- `Neg for RGBf`, rgb.rs:289-302. -/
instance : Neg (RGBf T) := ⟨fun a => ⟨-a.r, -a.g, -a.b⟩⟩
/-- `Mul<T> for RGBf`, rgb.rs:305-318. -/
instance : HMul (RGBf T) T (RGBf T) := ⟨fun a s => ⟨a.r * s, a.g * s, a.b * s⟩⟩
/-- `Div<T> for RGBf`, rgb.rs:321-334. -/
instance : HDiv (RGBf T) T (RGBf T) := ⟨fun a s => ⟨a.r / s, a.g / s, a.b / s⟩⟩
/-- `Add<T> for RGBf`, rgb.rs:337-350. -/
instance : HAdd (RGBf T) T (RGBf T) := ⟨fun a s => ⟨a.r + s, a.g + s, a.b + s⟩⟩
/-- `Sub<T> for RGBf`, rgb.rs:353-366. -/
instance : HSub (RGBf T) T (RGBf T) := ⟨fun a s => ⟨a.r - s, a.g - s, a.b - s⟩⟩

/-- `Sum for RGBf32/RGBf64`, rgb.rs:175-201. -/
def sum (l : List (RGBf T)) : RGBf T := l.foldl (· + ·) (fromScalar zero)
end RGBf

/-- Regrouping three by three: the memory view of `from_raw_parts(ptr as *const RGB, len/3)`. -/
def group3 {α β : Type} (mk : α → α → α → β) : List α → List β
  | a :: b :: c :: rest => mk a b c :: group3 mk rest
  | _ => []

/-- `RGBf::cast_slice`, rgb.rs:49-55. -/
def RGBf.castSlice (s : List T) : Res (List (RGBf T)) :=
  if s.length % 3 ≠ 0 then .error .assert else .ok (group3 RGBf.mk s)

/-- `hmax`, rgb.rs:449-454. -/
def hmax (c : RGBf T) : T := Flt.max c.r (Flt.max c.g c.b)

/-- `normalize`, rgb.rs:458-463. -/
def normalize (c : RGBf T) : RGBf T := c / hmax c

/-- `clamprgb`, rgb.rs:466-471. -/
def clamprgb (c : RGBf T) (a b : T) : RGBf T := ⟨clamp c.r a b, clamp c.g a b, clamp c.b a b⟩

/-- `RGBu8`, rgb.rs:473-479. -/
@[ext] structure RGBu8 where
  r : UInt8
  g : UInt8
  b : UInt8
deriving DecidableEq

/-- `RGBu8::cast_slice`, rgb.rs:481-491. -/
def RGBu8.castSlice (s : List UInt8) : Res (List RGBu8) :=
  if s.length % 3 ≠ 0 then .error .assert else .ok (group3 RGBu8.mk s)

/-- `RGBu16`, rgb.rs:493-499. -/
@[ext] structure RGBu16 where
  r : UInt16
  g : UInt16
  b : UInt16
deriving DecidableEq

/-- One component of `From<RGBf32/RGBf64> for RGBu8`, rgb.rs:568-572 and 588-592:
`(clamp(c, 0.0, 1.0) * 255.0).round() as u8`. -/
def quant8 (c : T) : UInt8 :=
  UInt8.ofNat (asUInt 255 (Flt.round (clamp c (lit 0) (lit 1) * lit 255)))

/-- One component of `From<RGBf32/RGBf64> for RGBu16`, rgb.rs:578-582 and 598-602. -/
def quant16 (c : T) : UInt16 :=
  UInt16.ofNat (asUInt 65535 (Flt.round (clamp c (lit 0) (lit 1) * lit 65535)))

/-- `From<RGBf32> for RGBu8` / `From<RGBf64> for RGBu8`, rgb.rs:566-574, 586-594. -/
def RGBf.toU8 (c : RGBf T) : RGBu8 := ⟨quant8 c.r, quant8 c.g, quant8 c.b⟩

/-- `From<RGBf32> for RGBu16` / `From<RGBf64> for RGBu16`, rgb.rs:576-584, 596-604. -/
def RGBf.toU16 (c : RGBf T) : RGBu16 := ⟨quant16 c.r, quant16 c.g, quant16 c.b⟩

/-- One component of `From<RGBu8> for RGBf32/RGBf64`, rgb.rs:609, 629. -/
def unquant8 (n : UInt8) : T := ofNat n.toNat / lit 255

/-- One component of `From<RGBu16> for RGBf32/RGBf64`, rgb.rs:619, 639. -/
def unquant16 (n : UInt16) : T := ofNat n.toNat / lit 65535

/-- `From<RGBu8> for RGBf32` / `RGBf64`, rgb.rs:606-614, 626-634. -/
def RGBu8.toF (c : RGBu8) : RGBf T := ⟨unquant8 c.r, unquant8 c.g, unquant8 c.b⟩

/-- `From<RGBu16> for RGBf32` / `RGBf64`, rgb.rs:616-624, 636-644. -/
def RGBu16.toF (c : RGBu16) : RGBf T := ⟨unquant16 c.r, unquant16 c.g, unquant16 c.b⟩

/-! ## XYZ and xyY -/

/-- `XYZ<T>`, xyz.rs:15-25. -/
@[ext] structure XYZ (T : Type) where
  x : T
  y : T
  z : T

/-- `XYY<T>`, chromaticity.rs:11-21. -/
@[ext] structure XYY (T : Type) where
  x : T
  y : T
  Y : T

namespace XYZ
/-- `XYZ::from_scalar`, xyz.rs:35-37. -/
def fromScalar (a : T) : XYZ T := ⟨a, a, a⟩

/-- derived `PartialEq for XYZ`, xyz.rs:17. -/
def eqb (a b : XYZ T) : Bool := Flt.eqb a.x b.x && Flt.eqb a.y b.y && Flt.eqb a.z b.z

/-- `XYZ::abs`, xyz.rs:44-50. -/
def abs (c : XYZ T) : XYZ T := ⟨Flt.abs c.x, Flt.abs c.y, Flt.abs c.z⟩

/-- `Index<usize> for XYZ`, xyz.rs:134-148. -/
def index (c : XYZ T) (i : ℕ) : Res T :=
  match i with
  | 0 => .ok c.x
  | 1 => .ok c.y
  | 2 => .ok c.z
  | _ => .error .index

/-- Assignment through `IndexMut<usize> for XYZ`, xyz.rs:150-162: `c[i] = v`. -/
def setIndex (c : XYZ T) (i : ℕ) (v : T) : Res (XYZ T) :=
  match i with
  | 0 => .ok { c with x := v }
  | 1 => .ok { c with y := v }
  | 2 => .ok { c with z := v }
  | _ => .error .index

/-- `Add for XYZ` (and `AddAssign`), xyz.rs:214-240. -/
instance : Add (XYZ T) := ⟨fun a b => ⟨a.x + b.x, a.y + b.y, a.z + b.z⟩⟩
/-- `Sub for XYZ`, xyz.rs:243-256. -/
instance : Sub (XYZ T) := ⟨fun a b => ⟨a.x - b.x, a.y - b.y, a.z - b.z⟩⟩
/-- `Mul for XYZ`, xyz.rs:259-272. -/
instance : Mul (XYZ T) := ⟨fun a b => ⟨a.x * b.x, a.y * b.y, a.z * b.z⟩⟩
/-- `Div for XYZ`, xyz.rs:275-288. -/
instance : Div (XYZ T) := ⟨fun a b => ⟨a.x / b.x, a.y / b.y, a.z / b.z⟩⟩
/-- `Neg for XYZ`, xyz.rs:291-304. -/
instance : Neg (XYZ T) := ⟨fun a => ⟨-a.x, -a.y, -a.z⟩⟩
/-- `Mul<T> for XYZ`, xyz.rs:307-320. -/
instance : HMul (XYZ T) T (XYZ T) := ⟨fun a s => ⟨a.x * s, a.y * s, a.z * s⟩⟩
/-- `Div<T> for XYZ`, xyz.rs:323-336. -/
instance : HDiv (XYZ T) T (XYZ T) := ⟨fun a s => ⟨a.x / s, a.y / s, a.z / s⟩⟩
/-- `Add<T> for XYZ`, xyz.rs:339-352. -/
instance : HAdd (XYZ T) T (XYZ T) := ⟨fun a s => ⟨a.x + s, a.y + s, a.z + s⟩⟩
/-- `Sub<T> for XYZ`, xyz.rs:355-368. -/
instance : HSub (XYZ T) T (XYZ T) := ⟨fun a s => ⟨a.x - s, a.y - s, a.z - s⟩⟩

/-- `Sum for XYZ`, xyz.rs:199-211. -/
def sum (l : List (XYZ T)) : XYZ T := l.foldl (· + ·) (fromScalar zero)

/-- `XYZ::normalized`, xyz.rs:40-42. -/
def normalized (c : XYZ T) : XYZ T := c / fromScalar c.y

/-- `XYZ::from_chromaticity` (also `From<XYY> for XYZ`), xyz.rs:66-72, 83-90. -/
def fromChromaticity (c : XYY T) : XYZ T :=
  (⟨c.x * c.Y / c.y, c.Y, (one - c.x - c.y) * c.Y / c.y⟩ : XYZ T) * (lit 100 : T)

/-- `XYZ::from_xy`, xyz.rs:74-76. -/
def fromXy (x y : T) : XYZ T := fromChromaticity ⟨x, y, one⟩

/-- `XYZ::normalized_y`, xyz.rs:78-80. -/
def normalizedY (c : XYZ T) : XYZ T := c / c.y * (lit 100 : T)
end XYZ

namespace XYY
/-- `xy`, chromaticity.rs:23-28. -/
def xy (x y : T) : XYY T := ⟨x, y, one⟩

/-- `XYY::from_xyz` (also `From<XYZ> for XYY`), chromaticity.rs:41-48. -/
def fromXyz (c : XYZ T) : XYY T :=
  let c := c / (lit 100 : T)
  ⟨c.x / (c.x + c.y + c.z), c.y / (c.x + c.y + c.z), c.y⟩
end XYY

end
end CS

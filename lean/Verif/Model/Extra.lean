import Verif.Model.Matrix
import Verif.Model.Vspd
import Verif.Num.FP

/-!
# Remaining operators and conversions
Models `rgb.rs:79-173, 368-446, 556-564`, `xyz.rs:92-131, 173-197`, `math.rs:339-381`,
`vspd.rs:137-143, 759-765`.
-/

namespace CS
open Flt

section
variable {T : Type} [Add T] [Sub T] [Mul T] [Div T] [Neg T] [Flt T]

namespace RGBf
/-- `Zero::zero for RGBf`, rgb.rs:83-88. -/
def zero : RGBf T := fromScalar Flt.zero

/-- `Zero::is_zero for RGBf`, rgb.rs:89-94. `is_zero` of a float is `== 0.0`. -/
def isZero (c : RGBf T) : Bool :=
  Flt.eqb c.r Flt.zero && Flt.eqb c.g Flt.zero && Flt.eqb c.b Flt.zero

/-- `One::one for RGBf`, rgb.rs:97-107. -/
def one : RGBf T := fromScalar Flt.one

/-- `f32 * RGBf<f32>`, rgb.rs:369-386. -/
instance : HMul T (RGBf T) (RGBf T) := ⟨fun s c => ⟨s * c.r, s * c.g, s * c.b⟩⟩
/-- `f32 + RGBf<f32>`, rgb.rs:389-406: the component is the left operand. -/
instance : HAdd T (RGBf T) (RGBf T) := ⟨fun s c => ⟨c.r + s, c.g + s, c.b + s⟩⟩
/-- `f32 - RGBf<f32>`, rgb.rs:409-426. -/
instance : HSub T (RGBf T) (RGBf T) := ⟨fun s c => ⟨s - c.r, s - c.g, s - c.b⟩⟩
/-- `f32 / RGBf<f32>`, rgb.rs:429-446. -/
instance : HDiv T (RGBf T) (RGBf T) := ⟨fun s c => ⟨s / c.r, s / c.g, s / c.b⟩⟩

/-- `ApproxEq for RGBf32/RGBf64`, rgb.rs:159-173. The comparison of two floats with the given margin
(`float_cmp`) is a parameter. -/
def approxEq (m : T → T → Bool) (a b : RGBf T) : Bool := m a.r b.r && m a.g b.g && m a.b b.b
end RGBf

namespace XYZ
/-- `Zero::zero for XYZ`, xyz.rs:96-98. -/
def zero : XYZ T := fromScalar Flt.zero

/-- `Zero::is_zero for XYZ`, xyz.rs:100-102. -/
def isZero (c : XYZ T) : Bool :=
  Flt.eqb c.x Flt.zero && Flt.eqb c.y Flt.zero && Flt.eqb c.z Flt.zero

/-- `One::one for XYZ`, xyz.rs:105-112. -/
def one : XYZ T := fromScalar Flt.one

/-- `ApproxEq for XYZf32/XYZf64`, xyz.rs:173-187; the float comparison is a parameter. -/
def approxEq (m : T → T → Bool) (a b : XYZ T) : Bool := m a.x b.x && m a.y b.y && m a.z b.z
end XYZ

/-- `ApproxEq for Sample`, vspd.rs:137-143; the float comparison is a parameter. -/
def Sample.approxEq (m : T → T → Bool) (a b : Sample T) : Bool := m a.nm b.nm && m a.v b.v

/-- `ApproxEq for &VSPD`, vspd.rs:759-765. -/
def VSPD.approxEq (m : T → T → Bool) (a b : VSPD T) : Bool :=
  a.samples.length == b.samples.length &&
    (a.samples.zip b.samples).all fun p => Sample.approxEq m p.1 p.2

/-- `Index<usize> for Matrix33`, math.rs:359-369: the row as a slice; the slice `[3i .. 3i+3]` panics for
`i ≥ 3`. -/
def Matrix33.row (m : Matrix33 T) (i : ℕ) : Res (List T) :=
  let x := [m.x0, m.x1, m.x2, m.x3, m.x4, m.x5, m.x6, m.x7, m.x8]
  let offset := i * 3
  if offset + 3 ≤ x.length then .ok ((x.drop offset).take 3) else .error .index

/-- `m[i][j]` through the row slice, math.rs:359-369. -/
def Matrix33.entry (m : Matrix33 T) (i j : ℕ) : Res T := do
  let r ← m.row i
  idx r j

/-- `m[i][j] = v` through the mutable row slice, math.rs:371-381. -/
def Matrix33.setEntry (m : Matrix33 T) (i j : ℕ) (v : T) : Res (Matrix33 T) :=
  let x := [m.x0, m.x1, m.x2, m.x3, m.x4, m.x5, m.x6, m.x7, m.x8]
  let offset := i * 3
  if offset + 3 ≤ x.length ∧ j < 3 then
    match x.set (offset + j) v with
    | [a, b, c, d, e, f, g, h, k] => .ok ⟨a, b, c, d, e, f, g, h, k⟩
    | _ => .error .index
  else .error .index

end

/-- `T::max_value()` of a float format: the largest finite number. -/
def FP.maxValue (f : Fmt) : FP f := FP.ofQ f false (((2 : ℚ) ^ f.p - 1) * 2 ^ ((f.emax : ℤ) - (f.p - 1)))

/-- `T::min_value()` of a float format: its negative. -/
def FP.minValue (f : Fmt) : FP f := -FP.maxValue f

/-- `Bounded for RGBf`, rgb.rs:109-127. -/
def RGBf.maxValue (f : Fmt) : RGBf (FP f) := ⟨FP.maxValue f, FP.maxValue f, FP.maxValue f⟩
/-- `Bounded for RGBf`, rgb.rs:109-127. -/
def RGBf.minValue (f : Fmt) : RGBf (FP f) := ⟨FP.minValue f, FP.minValue f, FP.minValue f⟩
/-- `Bounded for XYZ`, xyz.rs:114-131. -/
def XYZ.maxValue (f : Fmt) : XYZ (FP f) := ⟨FP.maxValue f, FP.maxValue f, FP.maxValue f⟩
/-- `Bounded for XYZ`, xyz.rs:114-131. -/
def XYZ.minValue (f : Fmt) : XYZ (FP f) := ⟨FP.minValue f, FP.minValue f, FP.minValue f⟩

/-- `From<RGBf64> for RGBf32`, rgb.rs:556-564: each component `as f32`. -/
def RGBf.narrow (c : RGBf (FP Fmt.b64)) : RGBf (FP Fmt.b32) := ⟨c.r.cast, c.g.cast, c.b.cast⟩

/-- `From<XYZf64> for XYZf32`, xyz.rs:189-197. -/
def XYZ.narrow (c : XYZ (FP Fmt.b64)) : XYZ (FP Fmt.b32) := ⟨c.x.cast, c.y.cast, c.z.cast⟩

/-- `From<M3f64> for M3f32`, math.rs:339-355. -/
def Matrix33.narrow (m : Matrix33 (FP Fmt.b64)) : Matrix33 (FP Fmt.b32) :=
  ⟨m.x0.cast, m.x1.cast, m.x2.cast, m.x3.cast, m.x4.cast, m.x5.cast, m.x6.cast, m.x7.cast, m.x8.cast⟩

end CS

import Mathlib.Data.Rat.Defs

/-!
# Numbers and panics

The Rust crate is generic over `T: Real` (`math.rs:530-560`, implemented for `f32` and `f64`).
The model is generic over a type with the arithmetic operators and the class `Flt` below, which
lists the remaining float operations the code calls.
-/

namespace CS

/-- Panic sites of the modelled code. -/
inductive Panic where
  | index            -- slice/array index out of range, or the explicit index panic of `RGBf`/`XYZ`
  | unwrap           -- `Option::unwrap` on `None`
  | overflow         -- `usize` subtraction below zero (debug profile)
  | assert           -- an explicit `panic!`/`assert!`
  | diverge          -- not a panic: the loop did not finish within the given fuel
deriving DecidableEq, Repr

/-- The result of a function that may panic. -/
abbrev Res (α : Type) := Except Panic α

/-- Float operations used by the crate besides `+ - * / neg`
(`num_traits::Float`, `std` float methods and `as` casts). -/
class Flt (T : Type) where
  /-- a decimal literal, `T::from(literal).unwrap()` -/
  lit : ℚ → T
  /-- `n as T` for an unsigned integer -/
  ofNat : ℕ → T
  lt : T → T → Bool
  le : T → T → Bool
  /-- `==` -/
  eqb : T → T → Bool
  abs : T → T
  max : T → T → T
  min : T → T → T
  powf : T → T → T
  powi : T → ℕ → T
  sqrt : T → T
  hypot : T → T → T
  atan2 : T → T → T
  sin : T → T
  cos : T → T
  exp : T → T
  log10 : T → T
  /-- `.to_degrees()` -/
  toDeg : T → T
  /-- `.to_radians()` -/
  toRad : T → T
  /-- `T::epsilon()` -/
  epsilon : T
  /-- `T::min_positive_value()` -/
  minPos : T
  /-- `.round()` (half away from zero) -/
  round : T → T
  /-- `x as uN` with the given maximum: truncation, saturating, NaN to 0 -/
  asUInt : ℕ → T → ℕ
  /-- `ToPrimitive::to_usize` -/
  toUsize : T → Option ℕ
  /-- `a.approx_eq(b, F64Margin { ulps: 2, epsilon: 1.0e-11 })` of `float_cmp`, the only use of an
  approximate comparison outside the tests (vspd.rs:445) -/
  approxEq : T → T → Bool

namespace Flt
variable {T : Type} [Flt T]
/-- `T::zero()` -/
abbrev zero : T := lit 0
/-- `T::one()` -/
abbrev one : T := lit 1
/-- `a > b` -/
abbrev gt (a b : T) : Bool := lt b a
/-- `a >= b` -/
abbrev ge (a b : T) : Bool := le b a
end Flt

/-- `usize` subtraction: panics (debug profile) below zero. -/
def usub (a b : ℕ) : Res ℕ := if b ≤ a then .ok (a - b) else .error .overflow

/-- `Option::unwrap`. -/
def unwrap {α : Type} : Option α → Res α
  | some a => .ok a
  | none => .error .unwrap

/-- `v[i]` on a slice. -/
def idx {α : Type} (l : List α) (i : ℕ) : Res α :=
  match l[i]? with
  | some a => .ok a
  | none => .error .index

end CS

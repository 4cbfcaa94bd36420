import Verif.Num.Flt
import Mathlib.Analysis.SpecialFunctions.Pow.Real
import Mathlib.Analysis.SpecialFunctions.Complex.Arg
import Mathlib.Analysis.SpecialFunctions.Log.Base

/-!
# Exact real arithmetic

The `ℝ` instance of the float operations. `epsilon` and `minPos` are those of binary64.
-/

namespace CS

open Classical in
/-- Exact arithmetic. `powf x y = x^y` (Mathlib's real power; equal to C's `pow` for `x ≥ 0`,
except `pow(0, y<0) = inf`), `sqrt` of a negative is 0 instead of NaN, `atan2 y x = arg (x + iy)`.
`approxEq` keeps only the absolute margin 1e-11: below 2^14 the two-ulp margin is contained in it. -/
noncomputable instance : Flt ℝ where
  lit q := (q : ℝ)
  ofNat n := (n : ℝ)
  lt a b := decide (a < b)
  le a b := decide (a ≤ b)
  eqb a b := decide (a = b)
  abs x := |x|
  max := max
  min := min
  powf x y := x ^ y
  powi x n := x ^ n
  sqrt := Real.sqrt
  hypot x y := Real.sqrt (x ^ 2 + y ^ 2)
  atan2 y x := Complex.arg ⟨x, y⟩
  sin := Real.sin
  cos := Real.cos
  exp := Real.exp
  log10 := Real.logb 10
  toDeg x := x * (180 / Real.pi)
  toRad x := x * (Real.pi / 180)
  epsilon := 2 ^ (-52 : ℤ)
  minPos := 2 ^ (-1022 : ℤ)
  round x := if 0 ≤ x then ⌊x + 1/2⌋ else -⌊-x + 1/2⌋
  asUInt m x := Nat.min m ⌊x⌋₊
  toUsize x := if -1 < x ∧ x < 2 ^ 64 then some ⌊x⌋₊ else none
  approxEq a b := decide (|a - b| ≤ 1 / 10 ^ 11)

section simp_lemmas
variable (a b : ℝ) (q : ℚ) (n : ℕ)

@[simp] theorem flt_lit : (Flt.lit q : ℝ) = (q : ℝ) := rfl
@[simp] theorem flt_ofNat : (Flt.ofNat n : ℝ) = n := rfl
@[simp] theorem flt_lt : Flt.lt a b = decide (a < b) := rfl
@[simp] theorem flt_le : Flt.le a b = decide (a ≤ b) := rfl
@[simp] theorem flt_eqb : Flt.eqb a b = decide (a = b) := rfl
@[simp] theorem flt_abs : Flt.abs a = |a| := rfl
@[simp] theorem flt_max : Flt.max a b = max a b := rfl
@[simp] theorem flt_min : Flt.min a b = min a b := rfl
@[simp] theorem flt_powf : Flt.powf a b = a ^ b := rfl
@[simp] theorem flt_powi : Flt.powi a n = a ^ n := rfl
@[simp] theorem flt_sqrt : Flt.sqrt a = Real.sqrt a := rfl
@[simp] theorem flt_hypot : Flt.hypot a b = Real.sqrt (a ^ 2 + b ^ 2) := rfl
@[simp] theorem flt_sin : Flt.sin a = Real.sin a := rfl
@[simp] theorem flt_cos : Flt.cos a = Real.cos a := rfl
@[simp] theorem flt_exp : Flt.exp a = Real.exp a := rfl
@[simp] theorem flt_log10 : Flt.log10 a = Real.logb 10 a := rfl
theorem flt_atan2 : Flt.atan2 a b = Complex.arg ⟨b, a⟩ := rfl
theorem flt_toUsize :
    Flt.toUsize a = if -1 < a ∧ a < 2 ^ 64 then some ⌊a⌋₊ else none := rfl
theorem flt_asUInt : Flt.asUInt n a = Nat.min n ⌊a⌋₊ := rfl
theorem flt_approxEq : Flt.approxEq a b = decide (|a - b| ≤ 1 / 10 ^ 11) := rfl

end simp_lemmas
end CS

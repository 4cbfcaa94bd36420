import Verif.Num.Flt
import Verif.Num.Round
import Mathlib.Order.WithBot

/-!
# An IEEE-754 binary arithmetic

`FP f` is the set of floats of format `f`: NaN (one, the payload is not observable by the crate),
the infinities, negative zero and the finite representable rationals (`fin 0` is `+0`).
Operations round the exact rational result to nearest-even, with gradual underflow and overflow
to infinity. The transcendental functions come from an uninterpreted `Libm`.
-/

namespace CS

/-- representable finite value of the format -/
def IsRep (f : Fmt) (q : ℚ) : Prop := roundQ f q = q ∧ |q| < 2 ^ (f.emax + 1)

instance (f : Fmt) (q : ℚ) : Decidable (IsRep f q) := by unfold IsRep; infer_instance

/-- IEEE floating-point data of format `f` -/
inductive FP (f : Fmt) where
  | nan
  | pinf
  | ninf
  | nzero
  | fin (q : ℚ) (h : IsRep f q)

namespace FP
variable {f : Fmt}

theorem isRep_zero (f : Fmt) : IsRep f 0 := ⟨roundQ_zero f, by simp⟩

theorem isRep_round {q : ℚ} (h : |roundQ f q| < 2 ^ (f.emax + 1)) : IsRep f (roundQ f q) :=
  ⟨roundQ_idem f q, h⟩

/-- the numeric value of a finite datum (0 otherwise) -/
def val : FP f → ℚ
  | fin q _ => q
  | _ => 0

def isFinite : FP f → Bool
  | fin _ _ => true
  | nzero => true
  | _ => false

def isNaN : FP f → Bool
  | nan => true
  | _ => false

/-- sign bit (irrelevant for NaN) -/
def sgn : FP f → Bool
  | ninf => true
  | nzero => true
  | fin q _ => decide (q < 0)
  | _ => false

def zeroOf (neg : Bool) : FP f := if neg then nzero else fin 0 (isRep_zero f)
def infOf (neg : Bool) : FP f := if neg then ninf else pinf

/-- Round an exact result to the format; `neg0` is the sign of an exact zero. -/
def ofQ (f : Fmt) (neg0 : Bool) (q : ℚ) : FP f :=
  if h : |roundQ f q| < 2 ^ (f.emax + 1) then
    if roundQ f q = 0 then zeroOf (if q = 0 then neg0 else decide (q < 0))
    else fin (roundQ f q) (isRep_round h)
  else infOf (decide (q < 0))

def neg : FP f → FP f
  | nan => nan
  | pinf => ninf
  | ninf => pinf
  | nzero => fin 0 (isRep_zero f)
  | fin q h => if q = 0 then nzero else fin (-q) ⟨by rw [roundQ_neg, h.1], by rw [abs_neg]; exact h.2⟩

/-- An exact zero sum is `+0`, except `-0 + -0 = -0`. -/
def add (a b : FP f) : FP f :=
  if a.isNaN || b.isNaN then nan
  else if a.isFinite then
    if b.isFinite then ofQ f (a.sgn && b.sgn) (a.val + b.val) else b
  else if b.isFinite then a
  else if a.sgn == b.sgn then a else nan

def sub (a b : FP f) : FP f := add a (neg b)

def mul : FP f → FP f → FP f
  | nan, _ => nan
  | _, nan => nan
  | a, b =>
    if a.isFinite && b.isFinite then ofQ f (a.sgn ^^ b.sgn) (a.val * b.val)
    else if (a.isFinite && a.val = 0) || (b.isFinite && b.val = 0) then nan
    else infOf (a.sgn ^^ b.sgn)

def div : FP f → FP f → FP f
  | nan, _ => nan
  | _, nan => nan
  | a, b =>
    if a.isFinite then
      if b.isFinite then
        if b.val = 0 then (if a.val = 0 then nan else infOf (a.sgn ^^ b.sgn))
        else ofQ f (a.sgn ^^ b.sgn) (a.val / b.val)
      else zeroOf (a.sgn ^^ b.sgn)
    else if b.isFinite then infOf (a.sgn ^^ b.sgn)
    else nan

instance : Add (FP f) := ⟨add⟩
instance : Sub (FP f) := ⟨sub⟩
instance : Mul (FP f) := ⟨mul⟩
instance : Div (FP f) := ⟨div⟩
instance : Neg (FP f) := ⟨neg⟩

/-- extended value used by the comparisons; `none` for NaN -/
def ext : FP f → Option (WithBot (WithTop ℚ))
  | nan => none
  | pinf => some ((⊤ : WithTop ℚ) : WithBot (WithTop ℚ))
  | ninf => some ⊥
  | nzero => some (((0 : ℚ) : WithTop ℚ) : WithBot (WithTop ℚ))
  | fin q _ => some ((q : WithTop ℚ) : WithBot (WithTop ℚ))

def lt (a b : FP f) : Bool :=
  match a.ext, b.ext with
  | some x, some y => decide (x < y)
  | _, _ => false

def le (a b : FP f) : Bool :=
  match a.ext, b.ext with
  | some x, some y => decide (x ≤ y)
  | _, _ => false

def eqb (a b : FP f) : Bool :=
  match a.ext, b.ext with
  | some x, some y => decide (x = y)
  | _, _ => false

def abs : FP f → FP f
  | nan => nan
  | pinf => pinf
  | ninf => pinf
  | nzero => fin 0 (isRep_zero f)
  | fin q h => if q < 0 then neg (fin q h) else fin q h

/-- `f64::max`: a NaN operand is ignored. For `+0`/`-0` Rust leaves the choice open; the model
returns the first. -/
def max (a b : FP f) : FP f :=
  if a.isNaN then b else if b.isNaN then a else if lt a b then b else a

/-- `f64::min` -/
def min (a b : FP f) : FP f :=
  if a.isNaN then b else if b.isNaN then a else if lt b a then b else a

/-- round half away from zero on the rationals -/
def roundHalfAway (q : ℚ) : ℤ := if 0 ≤ q then ⌊q + 1/2⌋ else -⌊-q + 1/2⌋

/-- `.round()`; the integer is re-rounded, which is a no-op -/
def round : FP f → FP f
  | fin q _ => ofQ f (decide (q < 0)) (roundHalfAway q)
  | x => x

/-- `x as uN` (saturating, NaN to 0) -/
def asUInt (m : ℕ) : FP f → ℕ
  | nan => 0
  | pinf => m
  | ninf => 0
  | nzero => 0
  | fin q _ => Nat.min m ⌊q⌋.toNat

/-- `ToPrimitive::to_usize` (64-bit) -/
def toUsize : FP f → Option ℕ
  | nzero => some 0
  | fin q _ => if -1 < q ∧ q < 2 ^ 64 then some ⌊q⌋.toNat else none
  | _ => none

/-- conversion between formats, `as f32` / `f64::from` -/
def cast {g : Fmt} : FP g → FP f
  | nan => nan
  | pinf => pinf
  | ninf => ninf
  | nzero => nzero
  | fin q _ => ofQ f false q

/-- A generic literal: the source decimal is rounded to binary64 by the compiler, then
`T::from` rounds it to the target format. -/
def lit (q : ℚ) : FP f := cast (ofQ Fmt.b64 false q)

end FP

/-- Operations not specified bit for bit by IEEE-754/Rust; the model does not constrain them. -/
class Libm (f : Fmt) where
  powf : FP f → FP f → FP f
  powi : FP f → ℕ → FP f
  sqrt : FP f → FP f
  hypot : FP f → FP f → FP f
  atan2 : FP f → FP f → FP f
  sin : FP f → FP f
  cos : FP f → FP f
  exp : FP f → FP f
  log10 : FP f → FP f
  toDeg : FP f → FP f
  toRad : FP f → FP f
  /-- within two units in the last place -/
  ulps2 : FP f → FP f → Bool

instance (f : Fmt) [Libm f] : Flt (FP f) where
  lit := FP.lit
  ofNat n := FP.ofQ f false n
  lt := FP.lt
  le := FP.le
  eqb := FP.eqb
  abs := FP.abs
  max := FP.max
  min := FP.min
  powf := Libm.powf
  powi := Libm.powi
  sqrt := Libm.sqrt
  hypot := Libm.hypot
  atan2 := Libm.atan2
  sin := Libm.sin
  cos := Libm.cos
  exp := Libm.exp
  log10 := Libm.log10
  toDeg := Libm.toDeg
  toRad := Libm.toRad
  epsilon := FP.ofQ f false (2 ^ (1 - (f.p : ℤ)))
  minPos := FP.ofQ f false (2 ^ f.emin)
  round := FP.round
  asUInt := FP.asUInt
  toUsize := FP.toUsize
  approxEq a b := FP.eqb a b || FP.le (FP.abs (a - b)) (FP.lit (1 / 10 ^ 11)) || Libm.ulps2 a b

end CS

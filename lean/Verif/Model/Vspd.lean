import Verif.Model.Color

/-!
# Sampled spectra: shapes, construction, interpolation, extrapolation, trimming
Models `vspd.rs:1-386, 437-463, 699-797` and `interpolation.rs`.
The Rust `VSPD` is over `f64`; the model is generic.
-/

namespace CS
open Flt

/-- `Interval<T>`, vspd.rs:33-39. -/
inductive Interval (T : Type) where
  | uniform (i : T)
  | varying

/-- `SpdShape<T>`, vspd.rs:18-30. -/
structure SpdShape (T : Type) where
  start : T
  «end» : T
  interval : Interval T

/-- `Sample`, vspd.rs:116-122. -/
@[ext] structure Sample (T : Type) where
  nm : T
  v : T

/-- `VSPD`, vspd.rs:156-160. -/
structure VSPD (T : Type) where
  samples : List (Sample T)
  shape : SpdShape T

section
variable {T : Type} [Add T] [Sub T] [Mul T] [Div T] [Neg T] [Flt T]

/-- derived `PartialEq for Interval`, vspd.rs:32. -/
def Interval.eqb : Interval T → Interval T → Bool
  | .uniform a, .uniform b => Flt.eqb a b
  | .varying, .varying => true
  | _, _ => false

/-- derived `PartialEq for SpdShape`, vspd.rs:18. -/
def SpdShape.eqb (a b : SpdShape T) : Bool :=
  Flt.eqb a.start b.start && Flt.eqb a.end b.end && a.interval.eqb b.interval

/-- derived `PartialEq for Sample`, vspd.rs:116. -/
def Sample.eqb (a b : Sample T) : Bool := Flt.eqb a.nm b.nm && Flt.eqb a.v b.v

/-- `PartialEq for VSPD`, vspd.rs:182-188. -/
def VSPD.eqb (a b : VSPD T) : Bool :=
  a.samples.length == b.samples.length && a.shape.eqb b.shape &&
    (a.samples.zip b.samples).all fun p => p.1.eqb p.2

/-- Sum of floats, `Iterator::sum::<f64>()`: left fold from zero. -/
def fsum (l : List T) : T := l.foldl (· + ·) zero

/-! ## Shapes -/

/-- `SpdShape::new`, vspd.rs:57-63. -/
def SpdShape.new (start stop interval : T) : SpdShape T := ⟨start, stop, .uniform interval⟩

/-- `SpdShape::astm_e308`, vspd.rs:65-71. -/
def SpdShape.astmE308 : SpdShape T := ⟨lit 360.0, lit 780, .uniform (lit 1.0)⟩

/-- `SpdShapeIterator<T>`, vspd.rs:87-95. -/
structure SpdShapeIterator (T : Type) where
  current : ℕ
  «end» : ℕ
  start : T
  interval : T

/-- `SpdShape::iter`, vspd.rs:73-84. -/
def SpdShape.iter (s : SpdShape T) : Res (SpdShapeIterator T) :=
  match s.interval with
  | .uniform i => do
    let n ← unwrap (toUsize ((s.end - s.start) / i))
    .ok ⟨0, n + 1, s.start, i⟩
  | .varying => .error .assert

/-- `SpdShapeIterator::next`, vspd.rs:97-111. -/
def SpdShapeIterator.next (it : SpdShapeIterator T) : SpdShapeIterator T × Option T :=
  let it := { it with current := it.current + 1 }
  if it.current ≤ it.end then (it, some (it.start + ofNat (it.current - 1) * it.interval))
  else (it, none)

/-- Draining the iterator of vspd.rs:97-111 by repeated `next` until `None` (`for`/`collect`), at most
`fuel` items. The counter `current` is a natural number: its overflow past `usize::MAX` is not
modelled. -/
def SpdShapeIterator.drain : ℕ → SpdShapeIterator T → List T
  | 0, _ => []
  | fuel + 1, it =>
    match it.next with
    | (it', some x) => x :: SpdShapeIterator.drain fuel it'
    | (_, none) => []

/-- All items of the iterator of vspd.rs:97-111: draining with enough fuel (`end - current` items
remain). -/
def SpdShapeIterator.toList (it : SpdShapeIterator T) : List T := it.drain (it.end + 1)

/-- `shape.iter()` (vspd.rs:73-84) collected. -/
def SpdShape.wavelengths (s : SpdShape T) : Res (List T) := do
  let it ← s.iter
  .ok it.toList

/-! ## Construction -/

/-- The loop of `calculate_interval`, vspd.rs:442-448, over `i in 1..len-1` with the check
`samples[i].nm - samples[i-1].nm`. -/
def intervalLoop (assumed : T) (samples : List (Sample T)) : List ℕ → Res (Interval T)
  | [] => .ok (.uniform assumed)
  | i :: is => do
    let a ← idx samples i
    let b ← idx samples (i - 1)
    if !(approxEq (a.nm - b.nm) assumed) then .ok .varying
    else intervalLoop assumed samples is

/-- `calculate_interval`, vspd.rs:437-451. -/
def calculateInterval (samples : List (Sample T)) : Res (Interval T) :=
  if samples.length < 2 then .error .assert
  else do
    let s1 ← idx samples 1
    let s0 ← idx samples 0
    intervalLoop (s1.nm - s0.nm) samples (List.range' 1 (samples.length - 1 - 1))

/-- `calculate_shape`, vspd.rs:453-463. -/
def calculateShape (samples : List (Sample T)) : Res (SpdShape T) :=
  if samples.length < 2 then .error .assert
  else do
    let f ← unwrap samples.head?
    let l ← unwrap samples.getLast?
    let i ← calculateInterval samples
    .ok ⟨f.nm, l.nm, i⟩

/-- `VSPD::new`, vspd.rs:195-198 (also `FromIterator`, vspd.rs:739-757). -/
def VSPD.new (samples : List (Sample T)) : Res (VSPD T) := do
  let shape ← calculateShape samples
  .ok ⟨samples, shape⟩

/-- `VSPD::constant`, vspd.rs:204-211. -/
def VSPD.constant (shape : SpdShape T) (value : T) : Res (VSPD T) := do
  let ws ← shape.wavelengths
  let samples := ws.map fun nm => (⟨nm, value⟩ : Sample T)
  if samples.length < 2 then .error .assert else .ok ⟨samples, shape⟩

/-- `VSPD::from_values`, vspd.rs:217-238. The `as usize` cast saturates at 2^64 - 1. -/
def VSPD.fromValues (shape : SpdShape T) (values : List T) : Res (VSPD T) :=
  if values.length < 2 then .error .assert
  else
    match shape.interval with
    | .varying => .error .assert
    | .uniform i =>
      if asUInt (2 ^ 64 - 1) ((shape.end - shape.start) / i) + 1 ≠ values.length then .error .assert
      else do
        let ws ← shape.wavelengths
        .ok ⟨(ws.zip values).map fun p => ⟨p.1, p.2⟩, shape⟩

namespace VSPD
/-- `VSPD::start`, vspd.rs:246-248. -/
def start (s : VSPD T) : T := s.shape.start
/-- `VSPD::end`, vspd.rs:251-253. -/
def «end» (s : VSPD T) : T := s.shape.end
/-- `VSPD::interval`, vspd.rs:256-258. -/
def interval (s : VSPD T) : Interval T := s.shape.interval
/-- `VSPD::values`, vspd.rs:291-293. -/
def values (s : VSPD T) : List T := s.samples.map Sample.v
/-- `VSPD::wavelengths`, vspd.rs:296-298. -/
def wavelengths (s : VSPD T) : List T := s.samples.map Sample.nm
/-- `VSPD::len`, vspd.rs:266-268. -/
def len (s : VSPD T) : ℕ := s.samples.length
/-- `VSPD::first`, vspd.rs:271-273. -/
def first (s : VSPD T) : Res (Sample T) := unwrap s.samples.head?
/-- `VSPD::last`, vspd.rs:276-278. -/
def last (s : VSPD T) : Res (Sample T) := unwrap s.samples.getLast?

/-- `Mul<f64> for VSPD` and `for &VSPD`, vspd.rs:783-797. -/
def smul (s : VSPD T) (k : T) : Res (VSPD T) :=
  VSPD.new (s.samples.map fun p => ⟨p.nm, p.v * k⟩)
/-- `Div<f64> for VSPD` and `for &VSPD`, vspd.rs:767-781. -/
def sdiv (s : VSPD T) (k : T) : Res (VSPD T) :=
  VSPD.new (s.samples.map fun p => ⟨p.nm, p.v / k⟩)
end VSPD

/-! ## Sprague interpolation -/

/-- `InterpolatorSprague<T>`, interpolation.rs:3-9. -/
structure Sprague (T : Type) where
  x : List T
  y : List T

/-- `coeff_c0`, interpolation.rs:49-51. -/
def coeffC0 : List T := [lit 884.0, -lit 1960.0, lit 3033.0, -lit 2648.0, lit 1080.0, -lit 180.0]
/-- `coeff_c1`, interpolation.rs:52-54. -/
def coeffC1 : List T := [lit 508.0, -lit 540.0, lit 488.0, -lit 367.0, lit 144.0, -lit 24.0]
/-- `coeff_c2`, interpolation.rs:55-57. -/
def coeffC2 : List T := [-lit 24.0, lit 144.0, -lit 367.0, lit 488.0, -lit 540.0, lit 508.0]
/-- `coeff_c3`, interpolation.rs:58-60. -/
def coeffC3 : List T := [-lit 180.0, lit 1080.0, -lit 2648.0, lit 3033.0, -lit 1960.0, lit 884.0]

/-- `zip`, multiply, sum: the shape of interpolation.rs:100-114. -/
def dotSum (a b : List T) : T := fsum (List.zipWith (· * ·) a b)

/-- The six Sprague polynomial coefficients from the six surrounding values `r[i-2] .. r[i+3]`,
interpolation.rs:61-70. -/
def spragueA (m2 m1 z p1 p2 p3 : T) : T × T × T × T × T × T :=
  (z,
   (lit 2.0 * m2 - lit 16.0 * m1 + lit 16.0 * p1 - lit 2.0 * p2) / lit 24.0,
   (-m2 + lit 16.0 * m1 - lit 30.0 * z + lit 16.0 * p1 - p2) / lit 24.0,
   (-lit 9.0 * m2 + lit 39.0 * m1 - lit 70.0 * z + lit 66.0 * p1 - lit 33.0 * p2 + lit 7.0 * p3) / lit 24.0,
   (lit 13.0 * m2 - lit 64.0 * m1 + lit 126.0 * z - lit 124.0 * p1 + lit 61.0 * p2 - lit 12.0 * p3) / lit 24.0,
   (-lit 5.0 * m2 + lit 25.0 * m1 - lit 50.0 * z + lit 50.0 * p1 - lit 25.0 * p2 + lit 5.0 * p3) / lit 24.0)

/-- The polynomial of interpolation.rs:130. -/
def spraguePoly (a : T × T × T × T × T × T) (dx : T) : T :=
  match a with
  | (a0, a1, a2, a3, a4, a5) =>
    a0 + a1 * dx + a2 * powi dx 2 + a3 * powi dx 3 + a4 * powi dx 4 + a5 * powi dx 5

namespace Sprague
/-- `InterpolatorSprague::new`, interpolation.rs:77-122. -/
def new (s : VSPD T) : Res (Sprague T) := do
  let first := (← unwrap s.samples.head?).nm
  let last := (← unwrap s.samples.getLast?).nm
  let s1 ← idx s.samples 1
  let interval := s1.nm - first
  let x1 := first - interval * lit 2.0
  let x2 := first - interval
  let x3 := last + interval
  let x4 := last + interval * lit 2.0
  let y1 := dotSum coeffC0 s.values
  let y2 := dotSum coeffC1 s.values
  let y3 := dotSum coeffC2.reverse s.values.reverse
  let y4 := dotSum coeffC3.reverse s.values.reverse
  .ok ⟨[x1, x2] ++ s.wavelengths ++ [x3, x4],
    [y1 / lit 209.0, y2 / lit 209.0] ++ s.values ++ [y3 / lit 209.0, y4 / lit 209.0]⟩

/-- `InterpolatorSprague::evaluate`, interpolation.rs:124-131, with `coeff_a`'s slice accesses
`r[i-2] .. r[i+3]`. -/
def evaluate (p : Sprague T) (x : T) : Res T := do
  let pos ← unwrap (p.x.findIdx? fun t => lt x t)
  let i0 ← usub pos 1
  let lim ← usub p.x.length 4
  let i := min (max i0 2) lim
  let xi ← idx p.x i
  let xi1 ← idx p.x (i + 1)
  let dx := (x - xi) / (xi1 - xi)
  let z ← idx p.y i
  let im2 ← usub i 2
  let m2 ← idx p.y im2
  let im1 ← usub i 1
  let m1 ← idx p.y im1
  let p1 ← idx p.y (i + 1)
  let p2 ← idx p.y (i + 2)
  let p3 ← idx p.y (i + 3)
  .ok (spraguePoly (spragueA m2 m1 z p1 p2 p3) dx)
end Sprague

/-! ## Other interpolators -/

/-- `ExtrapolatorConstant::evaluate`, interpolation.rs:144-150. -/
def extrapConst (s : VSPD T) (x : T) : Res T := do
  let f ← s.first
  if lt x f.nm then .ok f.v
  else do
    let l ← s.last
    .ok l.v

/-- `InterpolatorLinear::evaluate`, interpolation.rs:162-172. -/
def linearEval (s : VSPD T) (x : T) : Res T := do
  let f ← s.first
  if le x f.nm then .ok f.v
  else do
    let l ← s.last
    if ge x l.nm then .ok l.v
    else do
      let pos ← unwrap (s.samples.findIdx? fun p => lt x p.nm)
      let i ← usub pos 1
      let a ← idx s.samples i
      let b ← idx s.samples (i + 1)
      let d := (x - a.nm) / (b.nm - a.nm)
      .ok ((one - d) * a.v + d * b.v)

/-! ## Resampling -/

/-- `VSPD::interpolate`, vspd.rs:302-311. -/
def VSPD.interpolate (s : VSPD T) (shape : SpdShape T) : Res (VSPD T) := do
  let interp ← Sprague.new s
  let shape := { shape with start := Flt.max shape.start s.start, «end» := Flt.min shape.end s.end }
  let ws ← shape.wavelengths
  let samples ← ws.mapM fun nm => do
    let v ← interp.evaluate nm
    Except.ok (⟨nm, v⟩ : Sample T)
  .ok ⟨samples, shape⟩

/-- A `while cond(x) { push(x, eval(x)); x += interval }` loop with fuel (vspd.rs:345-348,
351-354). -/
def pushLoop (cond : T → Bool) (eval : T → Res T) (interval : T) : ℕ → T → Res (List (Sample T))
  | 0, x => if cond x then .error .diverge else .ok []
  | fuel + 1, x =>
    if cond x then do
      let v ← eval x
      let rest ← pushLoop cond eval interval fuel (x + interval)
      .ok (⟨x, v⟩ :: rest)
    else .ok []

/-- `VSPD::extrapolate`, vspd.rs:326-360, with fuel for each of the two loops. -/
def VSPD.extrapolate (fuel : ℕ) (s : VSPD T) (shape : SpdShape T) : Res (VSPD T) := do
  let start := Flt.min s.start shape.start
  let stop := Flt.max s.end shape.end
  let interval ← match s.shape.interval with
    | .uniform v => Except.ok v
    | .varying => match shape.interval with
      | .uniform v => Except.ok v
      | .varying => Except.error Panic.assert
  let left ← pushLoop (fun x => lt x s.start) (extrapConst s) interval fuel start
  let right ← pushLoop (fun x => le x stop) (extrapConst s) interval fuel (s.end + interval)
  .ok ⟨left ++ s.samples ++ right, SpdShape.new shape.start shape.end interval⟩

/-- `VSPD::align`, vspd.rs:315-317. -/
def VSPD.align (fuel : ℕ) (s : VSPD T) (shape : SpdShape T) : Res (VSPD T) := do
  let i ← s.interpolate shape
  i.extrapolate fuel shape

/-- `VSPD::trim`, vspd.rs:366-386. -/
def VSPD.trim (s : VSPD T) (shape : SpdShape T) : Res (VSPD T) := do
  let samples := (s.samples.dropWhile fun p => lt p.nm shape.start).takeWhile fun p => le p.nm shape.end
  let f ← unwrap samples.head?
  let l ← unwrap samples.getLast?
  .ok ⟨samples, ⟨f.nm, l.nm, s.shape.interval⟩⟩

/-! ## linspace and Lagrange coefficients -/

/-- `FloatRange`, vspd.rs:699-704. -/
structure FloatRange (T : Type) where
  current : ℕ
  steps : ℕ
  start : T
  delta : T

/-- `FloatRange::next`, vspd.rs:706-716. -/
def FloatRange.next (r : FloatRange T) : FloatRange T × Option T :=
  if r.current < r.steps then
    ({ r with current := r.current + 1 }, some (ofNat (r.current + 1 - 1) * r.delta + r.start))
  else (r, none)

/-- Draining the `FloatRange` of vspd.rs:706-716 by repeated `next`, at most `fuel` items. -/
def FloatRange.drain : ℕ → FloatRange T → List T
  | 0, _ => []
  | fuel + 1, r =>
    match r.next with
    | (r', some x) => x :: FloatRange.drain fuel r'
    | (_, none) => []

/-- All items of the `FloatRange` of vspd.rs:706-716. -/
def FloatRange.toList (r : FloatRange T) : List T := r.drain (r.steps + 1)

/-- `linspace`, vspd.rs:718-726. -/
def linspace (start stop : T) (steps : ℕ) : Res (FloatRange T) := do
  let n1 ← usub steps 1
  .ok ⟨0, steps, start, (stop - start) / ofNat n1⟩

/-- `lagrange_coefficients`, vspd.rs:686-697: entry `j` starts at 1 and is multiplied by
`(r - i)/(j - i)` for `i = 0..n`, `i != j`, in order. The entries do not interact, so the outer
loop is a map. -/
def lagrangeCoefficients (r : T) (n : ℕ) : List T :=
  (List.range n).map fun j =>
    (List.range n).foldl (fun acc i =>
      if i ≠ j then acc * ((r - ofNat i) / (ofNat j - ofNat i)) else acc) (lit 1.0)

/-- `lagrange_coefficients_astm_e2022`, vspd.rs:730-737. -/
def lagrangeCoefficientsE2022 (interval : T) (degree : ℕ) : Res (List (List T)) := do
  let num ← usub (asUInt (2 ^ 64 - 1) interval) 1
  let d : T := if degree = 4 then lit 1.0 else lit 0.0
  let rng ← linspace (lit 1.0 / interval) (lit 1.0 - (lit 1.0 / interval)) num
  .ok (rng.toList.map fun r => lagrangeCoefficients (r + d) degree)

end
end CS

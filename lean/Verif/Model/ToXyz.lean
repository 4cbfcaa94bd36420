import Verif.Model.Vspd

/-!
# Spectrum to XYZ
Models `vspd.rs:397-434, 465-684`, `cmf.rs:10-33`, `photometry.rs`.
-/

namespace CS
open Flt

/-- `CMF`, cmf.rs:11-16. -/
structure CMF (T : Type) where
  xBar : VSPD T
  yBar : VSPD T
  zBar : VSPD T

section
variable {T : Type} [Add T] [Sub T] [Mul T] [Div T] [Neg T] [Flt T]

/-- `CMF::shape`, cmf.rs:20-22. -/
def CMF.shape (c : CMF T) : SpdShape T := c.xBar.shape

/-- `CMF::align`, cmf.rs:26-32. -/
def CMF.align (fuel : ℕ) (c : CMF T) (shape : SpdShape T) : Res (CMF T) := do
  let x ← c.xBar.align fuel shape
  let y ← c.yBar.align fuel shape
  let z ← c.zBar.align fuel shape
  .ok ⟨x, y, z⟩

/-- `spd_to_xyz_integration`, vspd.rs:465-495. -/
def spdToXyzIntegration (fuel : ℕ) (spd illuminant : VSPD T) (cmf : CMF T) (shape : SpdShape T) :
    Res (XYZ T) := do
  let cx ← cmf.xBar.align fuel shape
  let cy ← cmf.yBar.align fuel shape
  let cz ← cmf.zBar.align fuel shape
  let il ← illuminant.align fuel shape
  let sp ← spd.align fuel shape
  let dw ← match shape.interval with
    | .uniform i => Except.ok i
    | .varying => Except.error Panic.assert
  let k := lit 100.0 / fsum ((il.values.zip cy.values).map fun p => p.1 * p.2 * dw)
  let int (c : VSPD T) : T :=
    k * fsum ((sp.values.zip (il.values.zip c.values)).map fun p => p.1 * p.2.1 * p.2.2 * dw)
  .ok ⟨int cx, int cy, int cz⟩

/-- `w[k] += v` with the bounds check, as in vspd.rs:596-637 and 667-677. -/
def addAt (w : List T) (k : ℕ) (v : T) : Res (List T) := do
  let old ← idx w k
  .ok (w.set k (old + v))

/-- `iter().step_by(n)`, used in vspd.rs:559-576: elements 0, n, 2n, ... (`n = 0` panics in Rust; the
callers only reach it with `n ≥ 1`). -/
def stepBy {α : Type} (n : ℕ) (l : List α) : List α :=
  (List.range l.length).filterMap fun i => if i % n = 0 then l[i]? else none

/-- The accumulation part of `tristimulus_weighting_factors_astme2022`, vspd.rs:558-637, for one of
the three colour-matching functions `y`; the three channels do not interact before the final
scaling, so the model runs them one after the other. `cc`/`cb` are the end/inner Lagrange
coefficients, `ii` the integer interval, `wc` and `ic` the lengths of the `x` colour-matching
function and of its coarse samples, which the code uses for all three channels. The subtraction
`i_cm - 2`, which the code evaluates inside a loop that runs `r_c >= 1` times, is evaluated once. -/
def weightsChannel (s y : List T) (cc cb : List (List T)) (ii wc ic : ℕ) : Res (List T) := do
  let w := List.zipWith (· * ·) (stepBy ii s) (stepBy ii y)
  let rc := cb.length
  let wc1 ← usub wc 1
  let a ← usub wc (wc1 % ii)
  let b ← usub a 1
  let wlif ← usub b rc
  let icm ← usub ic 1
  -- first interval, vspd.rs:591-597
  let w ← (List.range rc).foldlM (fun w j =>
    (List.range 3).foldlM (fun w k => do
      let c ← idx (← idx cc j) k
      let sv ← idx s (j + 1)
      let yv ← idx y (j + 1)
      addAt w k (c * sv * yv)) w) w
  -- last interval, vspd.rs:600-606
  let icm2 ← usub icm 2
  let w ← (List.range rc).foldlM (fun w j =>
    (List.range' icm2 3).reverse.foldlM (fun w k => do
      let c ← idx (← idx cc (rc - j - 1)) (icm - k)
      let sv ← idx s (j + wlif)
      let yv ← idx y (j + wlif)
      addAt w k (c * sv * yv)) w) w
  -- intermediate intervals, vspd.rs:609-628
  let ic3 ← usub ic 3
  let w ← (List.range ic3).foldlM (fun w j =>
    (List.range rc).foldlM (fun w k => do
      let wi := (rc + 1) * (j + 1) + 1 + k
      let ck ← idx cb k
      let sv ← idx s wi
      let yv ← idx y wi
      (List.range 4).foldlM (fun w l => do
        let c ← idx ck l
        addAt w (j + l) (c * sv * yv)) w) w) w
  -- extrapolation of a potentially incomplete interval, vspd.rs:631-635
  (List.range' a (wc - a)).foldlM (fun w j => do
    let sv ← idx s j
    let yv ← idx y j
    addAt w icm (sv * yv)) w

/-- `tristimulus_weighting_factors_astme2022`, vspd.rs:528-647. -/
def weightsE2022 (cmf : CMF T) (illuminant : VSPD T) (shape : SpdShape T) :
    Res (List T × List T × List T) :=
  match cmf.shape.interval with
  | .varying => .error .assert
  | .uniform i =>
    if !(eqb i (lit 1.0)) then .error .assert
    else if !(illuminant.shape.interval.eqb cmf.shape.interval) then .error .assert
    else
      match shape.interval with
      | .varying => .error .assert
      | .uniform interval => do
        let cc ← lagrangeCoefficientsE2022 interval 3
        let cb ← lagrangeCoefficientsE2022 interval 4
        let ii := asUInt (2 ^ 64 - 1) interval
        let s := illuminant.values
        let wc := cmf.xBar.values.length
        let ic := (List.zipWith (· * ·) (stepBy ii s) (stepBy ii cmf.xBar.values)).length
        let wx ← weightsChannel s cmf.xBar.values cc cb ii wc ic
        let wy ← weightsChannel s cmf.yBar.values cc cb ii wc ic
        let wz ← weightsChannel s cmf.zBar.values cc cb ii wc ic
        let k := lit 100.0 / fsum wy
        .ok (wx.map (· * k), wy.map (· * k), wz.map (· * k))

/-- One channel of `adjust_tristimulus_weighting_factors_astme308`, vspd.rs:649-684. -/
def adjustChannel (w : List T) (startIndex endIndex : ℕ) : Res (List T) := do
  let w ← (List.range startIndex).foldlM (fun w i => do
    let v ← idx w i
    addAt w startIndex v) w
  let n := w.length
  let w ← (List.range endIndex).foldlM (fun w i => do
    let a ← usub n i
    let a ← usub a 1
    let b ← usub n endIndex
    let b ← usub b 1
    let v ← idx w a
    addAt w b v) w
  let last ← usub n endIndex
  -- slice `[first..last]` panics when first > last (last ≤ n always)
  if startIndex ≤ last then .ok ((w.take last).drop startIndex) else .error .index

/-- `adjust_tristimulus_weighting_factors_astme308`, vspd.rs:649-684. -/
def adjustWeights (w : List T × List T × List T) (shapeR shapeT : SpdShape T) :
    Res (List T × List T × List T) :=
  match shapeR.interval with
  | .varying => .error .assert
  | .uniform ri => do
    let startIndex := asUInt (2 ^ 64 - 1) ((shapeT.start - shapeR.start) / ri)
    let endIndex := asUInt (2 ^ 64 - 1) ((shapeR.end - shapeT.end) / ri)
    let x ← adjustChannel w.1 startIndex endIndex
    let y ← adjustChannel w.2.1 startIndex endIndex
    let z ← adjustChannel w.2.2 startIndex endIndex
    .ok (x, y, z)

/-- `spd_to_xyz_tristimulus_weighting_factors_astme308`, vspd.rs:497-526. -/
def spdToXyzWeights (fuel : ℕ) (spd illuminant : VSPD T) (cmf : CMF T) : Res (XYZ T) :=
  match spd.shape.interval with
  | .varying => .error .assert
  | .uniform interval => do
    let il ← if !(illuminant.shape.eqb cmf.shape) then illuminant.align fuel cmf.shape
      else Except.ok illuminant
    let sp ← spd.trim cmf.shape
    let w ← weightsE2022 cmf il (SpdShape.new cmf.shape.start cmf.shape.end interval)
    let startW := cmf.shape.start
    let n1 ← usub w.1.length 1
    let endW := cmf.shape.start + interval * ofNat n1
    let w ← adjustWeights w (SpdShape.new startW endW interval) sp.shape
    .ok ⟨dotSum w.1 sp.values, dotSum w.2.1 sp.values, dotSum w.2.2 sp.values⟩

/-- `VSPD::to_xyz`, vspd.rs:397-434. The `println!` is not modelled. -/
def VSPD.toXyz (fuel : ℕ) (self illuminant : VSPD T) (cmf : CMF T) : Res (XYZ T) := do
  let sh : SpdShape T := SpdShape.new (lit 360.0) (lit 780.0) (lit 1.0)
  let il ← illuminant.align fuel sh
  let cm ← cmf.align fuel sh
  match self.interval with
  | .varying => do
    let spd ← self.align fuel (SpdShape.new self.shape.start self.shape.end (lit 1.0))
    spdToXyzIntegration fuel spd il cm spd.shape
  | .uniform interval => do
    let n ← unwrap (toUsize interval)
    match n with
    | 1 => spdToXyzIntegration fuel self il cm SpdShape.astmE308
    | 5 =>
      spdToXyzIntegration fuel self il cm
        { (SpdShape.astmE308 : SpdShape T) with interval := .uniform (lit 5.0) }
    | 10 => spdToXyzWeights fuel self il cm
    | _ => spdToXyzIntegration fuel self il cm SpdShape.astmE308

/-- `spd_to_nit`, photometry.rs:4-11. -/
def spdToNit (fuel : ℕ) (spd : VSPD T) (cmf : CMF T) : Res T := do
  let c ← cmf.yBar.align fuel spd.shape
  let s := dotSum spd.values c.values
  .ok (s * lit 683.0 / ofNat spd.len)

end
end CS
